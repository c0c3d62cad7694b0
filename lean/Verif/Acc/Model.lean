/-!
# IP addresses as text

`lc_x509_enc_san_ip` turns the text of an IP address into the bytes of a subject alternative name,
`lc_x509_dec_san_ip` does the opposite.  The functions of the C library they call (`strstr`, `strtok_r`,
`strtoul`, `snprintf`) are modelled for the "C" locale and a 64 bit `unsigned long`.

Simplifications: a C string is the list of its characters without the terminating NUL; the NULs that
`strtok_r` writes into the given text are not recorded (the text is not used afterwards).
-/

namespace LC.Acc

/-- `EINVAL` -/
def EINVAL : Int := 22
/-- `EOVERFLOW` -/
def EOVERFLOW : Int := 75

/-! ### The C library -/

/-- `strtok_r` with one delimiter: the next token and what the save pointer points to afterwards. -/
def strtok (d : Char) (s : List Char) : Option (List Char × List Char) :=
  match s.dropWhile (· == d) with
  | [] => none
  | c :: cs => some ((c :: cs).takeWhile (· != d), ((c :: cs).dropWhile (· != d)).drop 1)

/-- `isspace` -/
def isSpace (c : Char) : Bool := c.toNat == 32 || (9 ≤ c.toNat && c.toNat ≤ 13)

/-- Value of a digit in the bases up to 36, 99 for other characters. -/
def digitVal (c : Char) : Nat :=
  let n := c.toNat
  if 48 ≤ n ∧ n ≤ 57 then n - 48
  else if 65 ≤ n ∧ n ≤ 90 then n - 55
  else if 97 ≤ n ∧ n ≤ 122 then n - 87
  else 99

/-- The optional sign `strtoul` accepts: is it a minus, and the text behind it. -/
def stripSign : List Char → Bool × List Char
  | '-' :: cs => (true, cs)
  | '+' :: cs => (false, cs)
  | cs => (false, cs)

/-- The prefix `0x` `strtoul` skips in base 16 if a digit follows. -/
def strip0x : List Char → List Char
  | a :: b :: c :: cs =>
    if a = '0' ∧ (b = 'x' ∨ b = 'X') ∧ digitVal c < 16 then c :: cs else a :: b :: c :: cs
  | cs => cs

/-- The number a list of digits denotes. -/
def numeral (base : Nat) (cs : List Char) : Nat := cs.foldl (fun v c => v * base + digitVal c) 0

/-- `strtoul(s, NULL, base)`: the digits at the beginning of the text, saturated at `ULONG_MAX`, negated modulo
2^64 if there is a minus. -/
def strtoul (base : Nat) (s : List Char) : Nat :=
  let (neg, s1) := stripSign (s.dropWhile isSpace)
  let s2 := if base = 16 then strip0x s1 else s1
  let v := numeral base (s2.takeWhile (fun c => digitVal c < base))
  if 2 ^ 64 ≤ v then 2 ^ 64 - 1 else if neg then (2 ^ 64 - v) % 2 ^ 64 else v

/-- `snprintf(buf, size, …)` that formats `text`: at most `size - 1` characters and a NUL. -/
def snprintf (buf : List Char) (size : Nat) (text : List Char) : List Char :=
  if size = 0 then buf
  else
    let t := text.take (size - 1) ++ [Char.ofNat 0]
    t ++ buf.drop t.length

/-- The C string in a buffer. -/
def cstr (buf : List Char) : List Char := buf.takeWhile (· != Char.ofNat 0)

/-- `%<w>u` and `%<w>x`: lower case digits, filled with blanks on the left. -/
def fmt (base w v : Nat) : List Char :=
  let ds := Nat.toDigits base v
  List.replicate (w - ds.length) ' ' ++ ds

/-! ### Text to bytes -/

/-- The loop of `lc_x509_enc_san_ip`, `/repo/asn1/src/x509_cert_generator_set_data.c:427-434`: `n` rounds to go, index
`i`, `res` and save pointer, the output buffer. -/
def encLoop (d : Char) (base : Nat) : Nat → Nat → Option (List Char × List Char) → List Nat → Int × List Nat
  | 0, _, _, ip => (0, ip)
  | _ + 1, _, none, ip => (-EINVAL, ip)
  | n + 1, i, some (res, save), ip =>
    let val := strtoul base res
    if val > 255 then (-EINVAL, ip)
    else encLoop d base n (i + 1) (strtok d save) (ip.set i val)

/-- What `lc_x509_enc_san_ip` leaves: return value, output buffer and `*ip_len`. -/
structure EncRes where
  ret : Int
  ip : List Nat
  ipLen : Nat
deriving DecidableEq, Repr

/-- `lc_x509_enc_san_ip`, `/repo/asn1/src/x509_cert_generator_set_data.c:401-440`, for pointers that are not NULL. -/
def encSanIp (name : List Char) (ip : List Nat) (ipLen : Nat) : EncRes :=
  let v6 := name.contains ':'
  let tok := if v6 then ':' else '.'
  let upper := if v6 then 16 else 4
  let base := if v6 then 16 else 10
  if ipLen < upper then ⟨-EOVERFLOW, ip, ipLen⟩
  else
    let r := encLoop tok base upper 0 (strtok tok name) ip
    if r.1 = 0 then ⟨0, r.2, upper⟩ else ⟨r.1, r.2, ipLen⟩

/-- `lc_x509_enc_san_ip` with pointers: the NULL checks at lines 411-414. -/
def encSanIpP (cert : Bool) (name : Option (List Char)) (ip : Option (List Nat)) (ipLen : Option Nat) :
    Int × Option EncRes :=
  if !cert then (-EINVAL, none)
  else match name, ip, ipLen with
    | some n, some b, some l => let r := encSanIp n b l; (r.ret, some r)
    | _, _, _ => (-EINVAL, none)

/-! ### Bytes to text -/

/-- The text between the delimiters. -/
def joinWith (d : Char) : List (List Char) → List Char
  | [] => []
  | [t] => t
  | t :: ts => t ++ d :: joinWith d ts

/-- `lc_x509_dec_san_ip`, `/repo/asn1/src/x509_cert_parser_get_data.c:227-251`, for pointers that are not NULL; `ip` is the
memory `ip` points to, `none` if the function reads behind its end.  The ninth byte is printed twice as in the code. -/
def decSanIp (ip : List Nat) (ipLen : Nat) (buf : List Char) (size : Nat) : Option (Int × List Char) :=
  if ipLen = 16 then
    match [0, 1, 2, 3, 4, 5, 6, 7, 8, 8, 10, 11, 12, 13, 14, 15].mapM (ip[·]?) with
    | none => none
    | some bs => some (0, snprintf buf size (joinWith ':' (bs.map (fmt 16 2))))
  else
    match [0, 1, 2, 3].mapM (ip[·]?) with
    | none => none
    | some bs => some (0, snprintf buf size (joinWith '.' (bs.map (fmt 10 3))))

end LC.Acc
