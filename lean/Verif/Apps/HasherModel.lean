import Verif.Hash.Inst
import Verif.Hex.Model
/-
Model of the programs `sha256sum`, `sha512sum`, `sha3-256sum` and so on, `/repo/apps/src/hasher_app.c`:
the digests computed for the files given on the command line and the comparison with a digest of a check file.

A file is its contents, which do not change while it is read; opening and mapping it succeed.  Parsing of
options and of check files, the output format and reading from standard input are not modelled.
-/
namespace LC.Apps.Hasher

variable (S : StreamHash)

/-- The loop in lines 239-249 of `hasher`, `hasher_app.c:225-293`, with the size of the mapping set by
`mmap_file`, `hasher_app.c:188-199`: not more than what is left of the file.  `fuel` bounds the number of
rounds; `hashFile` gives enough of it. -/
def loop (file : List Byte) : Nat → S.Ctx → Nat → Nat → S.Ctx
  | 0, c, _, _ => c
  | fuel + 1, c, offset, mapped =>
    let mapped := if file.length - offset < mapped then file.length - offset else mapped
    let c := S.update c ((file.drop offset).take mapped)
    let offset := offset + mapped
    if offset = file.length then c else loop file fuel c offset mapped

/-- `hasher` for a file, lines 231-264: segments of `blocksize << 17` bytes, then `lc_hash_final`. -/
def hashFile (c : S.Ctx) (file : List Byte) : S.Ctx × List Byte :=
  S.final (loop S file (file.length + 1) c 0 (S.block * 2 ^ 17))

/-- The loop in lines 307-315 of `hasher_files`: digests in the order of the files. -/
def fileLoop (c : S.Ctx) : List (List Byte) → List (List Byte)
  | [] => []
  | f :: fs => (hashFile S c f).2 :: fileLoop (hashFile S c f).1 fs

/-- `hasher_files`, `hasher_app.c:295-319`: the hash is initialised once, before the first file; no file is an
error. -/
def hasherFiles (c : S.Ctx) (files : List (List Byte)) : Int × List (List Byte) :=
  if files.isEmpty then (-22, []) else (0, fileLoop S (S.init c) files)

/-- Comparison with a digest of a check file, lines 266-275 of `hasher`: return value, and the number of bytes
stored in `compmd`, which has 64.  `text` is not empty (otherwise the digest is printed); a byte stored behind
the buffer is not looked at again. -/
def check (md text : List Byte) : Int × Nat :=
  let w := Hex.hex2bin text 64
  let compmd := (w ++ List.replicate 64 0).take 64
  (if text.length ≠ md.length * 2 ∨ compmd.take md.length ≠ md then -74 else 0, w.length)

end LC.Apps.Hasher
