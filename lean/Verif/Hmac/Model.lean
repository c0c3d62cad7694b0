import Verif.Hash.Stream
/-
Model of HMAC (`/repo/hmac/src/hmac.c`) over any hash of the `lc_hash` interface.
-/
namespace LC.Hmac

variable (S : StreamHash)

/-- `struct lc_hmac_ctx` (`hmac/api/lc_hmac.h.in`). -/
structure Ctx where
  h : S.Ctx
  kOpad : List Byte
  kIpad : List Byte

variable {S}

/-- `lc_hmac_reinit`, `hmac.c:39-45`. -/
def reinit (c : Ctx S) : Ctx S :=
  { c with h := S.update (S.init c.h) (c.kIpad.take S.block) }

/-- `lc_hmac_init`, `hmac.c:47-89`; `h0` is the hash state memory found in the context.
The size checks of lines 60-63 (maximum block / digest size) are omitted: they hold for
every hash of the library. -/
def init (h0 : S.Ctx) (key : List Byte) : Ctx S :=
  let p : S.Ctx × List Byte :=
    if key.length > S.block then
      let q := S.final (S.update (S.init h0) key)
      (q.1, q.2 ++ List.replicate (S.block - S.dsize) 0)
    else (h0, key ++ List.replicate (S.block - key.length) 0)
  let kIpad := p.2.map (· ^^^ 0x36)
  let kOpad := p.2.map (· ^^^ 0x5c)
  reinit { h := p.1, kOpad := kOpad, kIpad := kIpad }

/-- `lc_hmac_update`, `hmac.c:91-97`. -/
def update (c : Ctx S) (x : List Byte) : Ctx S := { c with h := S.update c.h x }

/-- `lc_hmac_final`, `hmac.c:99-114`. -/
def final (c : Ctx S) : Ctx S × List Byte :=
  let p := S.final c.h
  let h := S.init p.1
  let h := S.update h (c.kOpad.take S.block)
  let h := S.update h (p.2.take S.dsize)
  let q := S.final h
  ({ c with h := q.1 }, q.2)

/-- `lc_hmac`, `hmac.c:158-169`. -/
def hmac (h0 : S.Ctx) (key inp : List Byte) : List Byte := (final (update (init h0 key) inp)).2

/-- API calls on a keyed context. -/
inductive Op where
  | update (x : List Byte)
  | final
  | reinit

/-- Effect of an API call on the context. -/
def Op.run (c : Ctx S) : Op → Ctx S
  | .update x => Hmac.update c x
  | .final => (Hmac.final c).1
  | .reinit => Hmac.reinit c

end LC.Hmac
