import Verif.Asn1.Props
/-
Model of the DER helper functions, `/repo/asn1/src/asn1_encoder_helper.c`, with their properties
(C30, C31): length octets, INTEGER, OBJECT IDENTIFIER, OCTET STRING, BOOLEAN.

A function that appends returns the bytes it wrote and the remaining space; the space is the
`*datalen` of the C code, which is also taken as the true size of the buffer.
-/
namespace LC.Asn1.Enc

def byte (n : Nat) : UInt8 := UInt8.ofNat n

/-! ### Model -/

/-- `asn1_encode_length`, lines 247-298: `none` is `-EINVAL`, with nothing written. -/
def encodeLength (avail len : Nat) : Option (List UInt8 × Nat) :=
  if avail < 1 then none
  else if len ≤ 0x7f then some ([byte len], avail - 1)
  else if avail < 2 then none
  else if len ≤ 0xff then some ([0x81, byte (len &&& 0xff)], avail - 2)
  else if avail < 3 then none
  else if len ≤ 0xffff then some ([0x82, byte ((len >>> 8) &&& 0xff), byte (len &&& 0xff)], avail - 3)
  else if len > 0xffffff then none
  else if avail < 4 then none
  else some ([0x83, byte ((len >>> 16) &&& 0xff), byte ((len >>> 8) &&& 0xff), byte (len &&& 0xff)], avail - 4)

/-- `asn1_encode_length_size`, lines 300-323. -/
def encodeLengthSize (len : Nat) : Option Nat :=
  if len ≤ 0x7f then some 1
  else if len ≤ 0xff then some 2
  else if len ≤ 0xffff then some 3
  else if len > 0xffffff then none
  else some 4

/-- Lines 442-470 `asn1_encode_octet_string` (`data` not NULL) and, with another tag, the forms of
`asn1_encode_sequence` and `asn1_encode_tag` for a given content: `none` is `-EINVAL`. -/
def encodeTlv (tag : UInt8) (avail : Nat) (content : List UInt8) : Option (List UInt8 × Nat) :=
  if avail < 2 then none
  else match encodeLength (avail - 1) content.length with
    | none => none
    | some (l, avail) =>
      if avail < content.length then none
      else some ([tag] ++ l ++ content, avail - content.length)

/-- Result of `asn1_encode_integer`: return value, bytes written from the start of the buffer, new
`*datalen`, and whether a byte outside the buffer was written. -/
structure IntRes where
  ret : Int
  out : List UInt8
  avail : Nat
  oob : Bool
deriving DecidableEq, Repr

def EINVAL : Int := 22

/-- Lines 67-101, the loop over the bytes of the value from `8 (i-1)` downwards; `out` is what has
been written from `&data[2]` on. -/
def intLoop (v : Nat) : Nat → Bool → Nat → List UInt8 → Int × List UInt8 × Nat
  | 0, _, avail, out => (0, out, avail)
  | i + 1, found, avail, out =>
    let b := v >>> (8 * i)
    if !found && b == 0 then intLoop v i found avail out
    else
      let pre := !found && b.testBit 7
      let out := if pre then out ++ [0] else out
      let avail := if pre then avail - 1 else avail
      if avail = 0 then (-EINVAL, out, avail)
      else intLoop v i true (avail - 1) (out ++ [byte b])

/-- `asn1_encode_integer`, lines 42-107, for a non-NULL buffer.  The label `out` stores the length
octet also when the function refuses, so that a buffer of less than two bytes is overrun. -/
def encodeInteger (avail : Nat) (v : Int) : IntRes :=
  if v < 0 then ⟨-EINVAL, [], avail, decide (avail < 2)⟩
  else if avail < 3 then ⟨-EINVAL, [], avail, decide (avail < 2)⟩
  else if v = 0 then ⟨0, [0x02, 1, 0], avail - 2, false⟩
  else
    let r := intLoop v.toNat 8 false (avail - 2) []
    ⟨r.1, [0x02, byte r.2.1.length] ++ r.2.1, r.2.2, false⟩

/-- The first loop of `asn1_encode_oid_digit`, lines 128-129. -/
def digitStart (oid : Nat) : Nat → Nat
  | 0 => 0
  | k + 1 => if oid >>> (7 * (k + 1)) = 0 then digitStart oid k else 7 * (k + 1)

/-- The second loop, lines 131-140, and the last octet. -/
def digitLoop : Nat → Nat → Nat → Nat → List UInt8 → Option (List UInt8 × Nat)
  | 0, _, _, _, _ => none
  | fuel + 1, oid, start, avail, out =>
    if start > 0 ∧ avail > 0 then
      let b := (oid >>> start) % 256
      digitLoop fuel (oid - b <<< start) (start - 7) (avail - 1) (out ++ [byte (b ||| 0x80)])
    else if avail > 0 then some (out ++ [byte oid], avail - 1)
    else none

/-- `asn1_encode_oid_digit`, lines 110-154. -/
def encodeOidDigit (avail oid : Nat) : Option (List UInt8 × Nat) :=
  if avail < 1 then none
  else if oid = 0 then some ([0x80], avail - 1)
  else digitLoop 6 oid (digitStart oid 4) avail []

/-- Lines 200-203. -/
def oidDigits : List Nat → Nat → List UInt8 → Option (List UInt8 × Nat)
  | [], avail, out => some (out, avail)
  | o :: os, avail, out =>
    match encodeOidDigit avail o with
    | none => none
    | some (b, avail) => oidDigits os avail (out ++ b)

/-- `(uint8_t)(d - data - 2)`, line 205. -/
def lenByte (out : List UInt8) : UInt8 := byte out.length - 2

/-- `asn1_encode_oid`, lines 168-211: `d` starts at the beginning of the buffer, so the first octet
of the value replaces the tag and the length replaces the second octet.  The casts to `uint8_t`
are in `byte`. -/
def encodeOid (avail : Nat) (oid : List Nat) : Option (List UInt8 × Nat) :=
  match oid with
  | o0 :: o1 :: rest =>
    if oid.length > 32 then none
    else if avail < 3 then none
    else match oidDigits rest (avail - 3) [byte (o0 * 40 + o1)] with
      | none => none
      | some (out, avail) => some (out.set 1 (lenByte out), avail)
  | _ => none

/-- `asn1_encode_binary_oid`, lines 223-256. -/
def encodeBinaryOid (avail : Nat) (oid : List UInt8) : Option (List UInt8 × Nat) :=
  if oid.length < 2 then none
  else if oid.length ≥ 128 then none
  else if avail < 2 + oid.length then none
  else some ([0x06, byte oid.length] ++ oid, avail - (oid.length + 2))

/-! ### Specification -/

/-- Value of big-endian octets. -/
def beVal (l : List UInt8) : Nat := l.foldl (fun a b => a * 256 + b.toNat) 0

/-- X.690, 10.1: `l` are the DER length octets of `n`: the short form below 128, and otherwise the
number of the octets and the value without leading zero octets. -/
def IsDerLen (n : Nat) (l : List UInt8) : Prop :=
  if n < 128 then l = [byte n]
  else ∃ v : List UInt8, l = byte (0x80 + v.length) :: v ∧ v.length < 127 ∧ beVal v = n ∧ v.head? ≠ some 0

/-- X.690, 8.3: `l` are the contents octets of the non-negative INTEGER `n`: two's complement, and
the first nine bits are not all equal. -/
def IsDerInt (n : Nat) (l : List UInt8) : Prop :=
  l ≠ [] ∧ beVal l = n ∧ (∀ b, l.head? = some b → b.toNat < 128) ∧
  (∀ a b r, l = a :: b :: r → a = 0 → 128 ≤ b.toNat)

/-! ### C30 -/

theorem byte_toNat {n : Nat} (h : n < 256) : (byte n).toNat = n := by
  unfold byte; simp; omega

theorem and_ff (n : Nat) : n &&& 0xff = n % 256 := Nat.and_two_pow_sub_one_eq_mod n 8

theorem byte_ne_zero {n : Nat} (h : n < 256) (h0 : n ≠ 0) : byte n ≠ 0 := by
  intro he
  have := congrArg UInt8.toNat he
  rw [byte_toNat h] at this
  exact h0 this

/-- Exactly what the length encoder does: it succeeds if and only if the length has at most three
octets and the DER form fits, and then it writes the DER form and reduces the space by its size. -/
theorem encodeLength_spec (avail len : Nat) :
    match encodeLength avail len with
    | some (l, avail') => len < 2 ^ 24 ∧ IsDerLen len l ∧ l.length ≤ avail ∧ avail' = avail - l.length ∧
        encodeLengthSize len = some l.length
    | none => 2 ^ 24 ≤ len ∨ (∀ k, encodeLengthSize len = some k → avail < k) := by
  unfold encodeLength encodeLengthSize
  by_cases h1 : len ≤ 0x7f
  · simp only [h1, if_true]
    by_cases a1 : avail < 1
    · rw [if_pos a1]
      exact .inr (fun k hk => by injection hk; omega)
    · rw [if_neg a1]
      refine ⟨by omega, ?_, by simp; omega, rfl, rfl⟩
      unfold IsDerLen
      rw [if_pos (by omega)]
  · simp only [h1, if_false]
    by_cases h2 : len ≤ 0xff
    · simp only [h2, if_true]
      by_cases a1 : avail < 2
      · have : (if avail < 1 then none else if avail < 2 then none
            else some (([0x81, byte (len &&& 0xff)] : List UInt8), avail - 2)) = none := by
          rw [if_pos a1]
          repeat' split
          all_goals rfl
        rw [this]
        exact .inr (fun k hk => by injection hk; omega)
      · rw [if_neg (by omega), if_neg a1]
        refine ⟨by omega, ?_, by simp; omega, rfl, rfl⟩
        unfold IsDerLen
        rw [if_neg (by omega), and_ff]
        refine ⟨[byte (len % 256)], rfl, by simp, ?_, ?_⟩
        · simp only [beVal, List.foldl]
          rw [byte_toNat (by omega)]
          omega
        · intro h
          injection h with h
          exact byte_ne_zero (by omega) (by omega) h
    · simp only [h2, if_false]
      by_cases h3 : len ≤ 0xffff
      · simp only [h3, if_true]
        by_cases a1 : avail < 3
        · have : (if avail < 1 then none else if avail < 2 then none else if avail < 3 then none
              else some (([0x82, byte ((len >>> 8) &&& 0xff), byte (len &&& 0xff)] : List UInt8), avail - 3)) = none := by
            rw [if_pos a1]
            repeat' split
            all_goals rfl
          rw [this]
          exact .inr (fun k hk => by injection hk; omega)
        · rw [if_neg (by omega), if_neg (by omega), if_neg a1]
          refine ⟨by omega, ?_, by simp; omega, rfl, rfl⟩
          unfold IsDerLen
          rw [if_neg (by omega), and_ff, and_ff, Nat.shiftRight_eq_div_pow]
          refine ⟨[byte (len / 2 ^ 8 % 256), byte (len % 256)], rfl, by simp, ?_, ?_⟩
          · simp only [beVal, List.foldl]
            rw [byte_toNat (by omega), byte_toNat (by omega)]
            omega
          · intro h
            injection h with h
            exact byte_ne_zero (by omega) (by omega) h
      · simp only [h3, if_false]
        by_cases h4 : len > 0xffffff
        · have : (if avail < 1 then none else if avail < 2 then none else if avail < 3 then none
              else if len > 0xffffff then none else if avail < 4 then none
              else some (([0x83, byte ((len >>> 16) &&& 0xff), byte ((len >>> 8) &&& 0xff), byte (len &&& 0xff)] : List UInt8), avail - 4)) = none := by
            rw [if_pos h4]
            repeat' split
            all_goals rfl
          rw [this]
          exact .inl (by omega)
        · simp only [h4, if_false]
          by_cases a1 : avail < 4
          · have : (if avail < 1 then none else if avail < 2 then none else if avail < 3 then none
                else if avail < 4 then none
                else some (([0x83, byte ((len >>> 16) &&& 0xff), byte ((len >>> 8) &&& 0xff), byte (len &&& 0xff)] : List UInt8), avail - 4)) = none := by
              rw [if_pos a1]
              repeat' split
              all_goals rfl
            rw [this]
            exact .inr (fun k hk => by injection hk; omega)
          · rw [if_neg (by omega), if_neg (by omega), if_neg (by omega), if_neg a1]
            refine ⟨by omega, ?_, by simp; omega, rfl, rfl⟩
            unfold IsDerLen
            rw [if_neg (by omega), and_ff, and_ff, and_ff, Nat.shiftRight_eq_div_pow, Nat.shiftRight_eq_div_pow]
            refine ⟨[byte (len / 2 ^ 16 % 256), byte (len / 2 ^ 8 % 256), byte (len % 256)], rfl, by simp, ?_, ?_⟩
            · simp only [beVal, List.foldl]
              rw [byte_toNat (by omega), byte_toNat (by omega), byte_toNat (by omega)]
              omega
            · intro h
              injection h with h
              exact byte_ne_zero (by omega) (by omega) h

example : encodeLength 10 300 = some ([0x82, 0x01, 0x2c], 7) := by decide
example : encodeLength 2 300 = none := by decide

/-! ### Round trip with the decoder -/

theorem readLen_val (pre v post : List UInt8) (acc : Nat) :
    readLen (pre ++ v ++ post) v.length pre.length acc =
      some (v.foldl (fun a b => a * 256 + b.toNat) acc, pre.length + v.length) := by
  induction v generalizing pre acc with
  | nil => simp [readLen]
  | cons b v ih =>
    simp only [List.length_cons, readLen]
    have : (pre ++ (b :: v) ++ post)[pre.length]? = some b := by simp
    rw [this]
    dsimp only
    have h := ih (pre ++ [b]) (acc * 256 + b.toNat)
    simp only [List.append_assoc, List.cons_append, List.nil_append, List.length_append, List.length_cons,
      List.length_nil] at h ⊢
    rw [h]
    simp only [List.foldl_cons]
    congr 2
    omega

/-- The decoder reads back the length octets of the encoder. -/
theorem matchLen_der (pre l content post : List UInt8) (hl : IsDerLen content.length l) (h4 : l.length ≤ 4)
    (s : St) (hdp : s.dp = pre.length) (hN : s.datalen < 2 ^ 64)
    (hdl : pre.length + l.length + content.length ≤ s.datalen) :
    matchLen (pre ++ (l ++ (content ++ post))) s =
      pushCons { s with dp := pre.length + l.length, len := content.length, hdr := s.hdr + (l.length - 1) } := by
  unfold IsDerLen at hl
  by_cases hn : content.length < 128
  · rw [if_pos hn] at hl
    subst hl
    unfold matchLen
    rw [hdp]
    have : (pre ++ ([byte content.length] ++ (content ++ post)))[pre.length]? = some (byte content.length) := by simp
    rw [this]
    simp only [List.length_singleton] at hdl ⊢
    rw [byte_toNat (by omega), wsub_eq (by omega) hN, if_neg (by omega), if_neg (by omega)]
    rfl
  · rw [if_neg hn] at hl
    obtain ⟨v, rfl, h127, hval, hhd⟩ := hl
    simp only [List.length_cons] at hdl h4
    have hv : v.length ≠ 0 := by
      intro h0
      rw [List.length_eq_zero_iff.1 h0] at hval
      simp [beVal] at hval
      omega
    unfold matchLen
    rw [hdp]
    have : (pre ++ ((byte (0x80 + v.length) :: v) ++ (content ++ post)))[pre.length]? =
        some (byte (0x80 + v.length)) := by simp
    rw [this]
    dsimp only
    rw [byte_toNat (by omega), if_pos (by omega), if_neg (by omega), wsub_eq (by omega) hN,
      Nat.add_sub_cancel_left, if_neg (by omega), if_neg (by omega)]
    have hr := readLen_val (pre ++ [byte (0x80 + v.length)]) v (content ++ post) 0
    simp only [List.append_assoc, List.cons_append, List.nil_append, List.length_append, List.length_cons,
      List.length_nil] at hr ⊢
    rw [hr]
    dsimp only
    have hb : v.foldl (fun a b => a * 256 + b.toNat) 0 = content.length := hval
    rw [hb, wsub_eq (by omega) hN, if_neg (by omega)]
    congr 2
    all_goals omega

theorem encodeTlv_some {tag : UInt8} {avail avail' : Nat} {content out : List UInt8}
    (h : encodeTlv tag avail content = some (out, avail')) :
    ∃ l, out = tag :: (l ++ content) ∧ IsDerLen content.length l ∧ l.length ≤ 4 ∧
      out.length ≤ avail ∧ avail' = avail - out.length := by
  unfold encodeTlv at h
  split at h
  · cases h
  · have hs := encodeLength_spec (avail - 1) content.length
    split at h
    · cases h
    · rename_i l a he
      rw [he] at hs
      dsimp only at hs
      obtain ⟨h1, h2, h3, h4, h5⟩ := hs
      split at h
      · cases h
      · injection h with h
        injection h with h6 h7
        subst h6
        refine ⟨l, by simp, h2, ?_, ?_, ?_⟩
        · unfold encodeLengthSize at h5
          repeat' split at h5
          all_goals first | (injection h5; omega) | cases h5
        · simp only [List.length_append, List.length_cons, List.length_nil]; omega
        · rw [← h7]; simp only [List.length_append, List.length_cons, List.length_nil]; omega

theorem step_eq (d : Decoder) (cb : List Call → Int) (data : List UInt8) (s : St) (op l : Nat)
    (h1 : d.machine[s.pc]? = some op) (h2 : opLen op = some l) (h3 : s.pc + l ≤ d.machine.length) :
    step d cb data s = exec d cb data op l s := by
  unfold step
  rw [h1]
  dsimp only
  rw [h2]
  dsimp only
  rw [if_neg (by omega)]

theorem run_two {d : Decoder} {cb : List Call → Int} {data : List UInt8} {s s1 s2 : St} {r : Int}
    (h1 : step d cb data s = .next s1) (h2 : step d cb data s1 = .halt r s2) :
    run d cb data 2 s = .halt r s2 := by
  show run d cb data (0 + 1 + 1) s = _
  rw [run, h1]
  show run d cb data (0 + 1) s1 = _
  rw [run, h2]

/-- C30: what `asn1_encode_octet_string` wrote is decoded by the grammar of an OCTET STRING to exactly the
string, also with more data behind it. -/
theorem octet_string_roundtrip (avail avail' : Nat) (content out post : List UInt8) (cb : List Call → Int)
    (hcb : ∀ t, cb t = 0) (h : encodeTlv 0x04 avail content = some (out, avail'))
    (hmax : (out ++ post).length ≤ 2 ^ 18) :
    ∃ s c, decode x509_skid cb (out ++ post) 2 = .halt 0 s ∧ s.trace = [c] ∧ c.act = 0 ∧ c.tag = 0x04 ∧
      ((out ++ post).drop c.off).take c.len = content := by
  obtain ⟨l, rfl, hl, h4, hle, rfl⟩ := encodeTlv_some h
  have hlen : ((0x04 :: (l ++ content)) ++ post).length = 1 + l.length + content.length + post.length := by
    simp only [List.length_append, List.length_cons]; omega
  have hl1 : 1 ≤ l.length := by
    unfold IsDerLen at hl
    split at hl
    · rw [hl]; simp
    · obtain ⟨v, rfl, _⟩ := hl; simp
  rw [hlen] at hmax
  unfold decode
  rw [hlen, if_neg (by omega)]
  have hstart : start ((0x04 :: (l ++ content)) ++ post) = { datalen := 1 + l.length + content.length + post.length } := by
    unfold start; rw [hlen]
  rw [hstart]
  have hml := matchLen_der [0x04] l content post hl h4
    { pc := 0, dp := 1, tag := 4, hdr := 2, matched := true, datalen := 1 + l.length + content.length + post.length }
    rfl (by dsimp only; omega) (by simp only [List.length_cons, List.length_nil]; omega)
  simp only [List.length_cons, List.length_nil, List.cons_append, List.nil_append, Nat.zero_add] at hml
  have hstep : step x509_skid cb ((0x04 :: (l ++ content)) ++ post)
      { datalen := 1 + l.length + content.length + post.length } =
      .next { pc := 3, dp := 1 + l.length + content.length, tdp := 1 + l.length, len := content.length,
              datalen := 1 + l.length + content.length + post.length, hdr := 2 + (l.length - 1), tag := 4,
              matched := true, trace := [⟨0, 2 + (l.length - 1), 4, 1 + l.length, content.length⟩] } := by
    have hmo : matchOp x509_skid ((0x04 :: (l ++ content)) ++ post) 2 3
        { datalen := 1 + l.length + content.length + post.length } =
        .go { pc := 0, dp := 1 + l.length, tdp := 1 + l.length, len := content.length,
              datalen := 1 + l.length + content.length + post.length, hdr := 2 + (l.length - 1), tag := 4,
              matched := true } := by
      unfold matchOp
      rw [if_neg (by simp [isCond, isSkip])]
      dsimp only
      rw [wsub_eq (by omega) (by omega), if_neg (by omega)]
      simp only [List.cons_append, List.getElem?_cons_zero]
      rw [if_neg (by decide)]
      unfold matchTag
      dsimp only
      rw [if_neg (by decide)]
      simp only [x509_skid, Nat.zero_add, List.getElem?_cons_succ, List.getElem?_cons_zero]
      rw [if_neg (by decide)]
      have e : (4 : UInt8).toNat = 4 := rfl
      have e2 : consBit 4 = false := by decide
      rw [e, e2, List.append_assoc]
      rw [hml]
      rfl
    rw [step_eq x509_skid cb _ _ 2 3 rfl rfl (by simp [x509_skid])]
    unfold exec
    rw [if_pos (by decide), hmo]
    simp only [matchCont]
    unfold afterMatch
    rw [if_pos (by decide)]
    unfold leafOp
    rw [if_neg (by simp)]
    unfold leafAct
    dsimp only
    rw [if_pos (by decide)]
    unfold callAct
    have e3 : isAny 2 = false := by decide
    have e4 : x509_skid.machine[0 + 2]? = some 0 := rfl
    simp only [e3, Bool.false_eq_true, if_false]
    rw [e4]
    dsimp only
    rw [if_neg (by decide), hcb, if_neg (by decide)]
  have hstep2 : ∀ s : St, s.pc = 3 → s.jstk = [] → s.cstk = [] →
      step x509_skid cb ((0x04 :: (l ++ content)) ++ post) s = .halt 0 s := by
    intro s h1 h2 h3
    rw [step_eq x509_skid cb _ s 0x1d 1 (by rw [h1]; rfl) rfl (by rw [h1]; decide)]
    unfold exec
    rw [if_neg (by decide), if_neg (by decide)]
    unfold ctlOp
    dsimp only
    rw [if_neg (by decide), if_pos rfl, h2, h3, if_neg (by simp)]
  refine ⟨{ pc := 3, dp := 1 + l.length + content.length, tdp := 1 + l.length, len := content.length,
              datalen := 1 + l.length + content.length + post.length, hdr := 2 + (l.length - 1), tag := 4,
              matched := true, trace := [⟨0, 2 + (l.length - 1), 4, 1 + l.length, content.length⟩] },
    ⟨0, 2 + (l.length - 1), 4, 1 + l.length, content.length⟩, ?_, rfl, rfl, rfl, ?_⟩
  · exact run_two hstep (hstep2 _ rfl rfl rfl)
  · dsimp only
    have : ((0x04 :: (l ++ content)) ++ post) = (0x04 :: l) ++ (content ++ post) := by simp
    rw [this, List.drop_left' (by simp; omega), List.take_left' rfl]

example : encodeTlv 0x04 10 [1, 2, 3] = some ([4, 3, 1, 2, 3], 5) := by decide

/-! ### C31: INTEGER -/

theorem foldl_val (l : List UInt8) (a : Nat) :
    l.foldl (fun a b => a * 256 + b.toNat) a = a * 256 ^ l.length + beVal l := by
  unfold beVal
  induction l generalizing a with
  | nil => simp
  | cons b l ih =>
    simp only [List.foldl_cons, List.length_cons]
    rw [ih, ih (0 * 256 + b.toNat), Nat.pow_succ, Nat.add_mul, Nat.mul_assoc, Nat.mul_comm 256, Nat.zero_mul,
      Nat.zero_add]
    omega

theorem beVal_append (a b : List UInt8) : beVal (a ++ b) = beVal a * 256 ^ b.length + beVal b := by
  unfold beVal
  rw [List.foldl_append]
  exact foldl_val b _

/-- Low `i` bytes of `v`, big-endian. -/
def beBytes (v : Nat) : Nat → List UInt8
  | 0 => []
  | i + 1 => byte (v >>> (8 * i)) :: beBytes v i

theorem beBytes_length (v i : Nat) : (beBytes v i).length = i := by
  induction i with
  | zero => rfl
  | succ i ih => simp [beBytes, ih]

theorem byte_mod (n : Nat) : (byte n).toNat = n % 256 := by unfold byte; simp

theorem beVal_cons (b : UInt8) (l : List UInt8) : beVal (b :: l) = b.toNat * 256 ^ l.length + beVal l := by
  have := beVal_append [b] l
  simpa [beVal] using this

theorem beVal_beBytes (v i : Nat) : beVal (beBytes v i) = v % 256 ^ i := by
  induction i with
  | zero => simp [beBytes, beVal, Nat.mod_one]
  | succ i ih =>
    rw [beBytes, beVal_cons, beBytes_length, ih, byte_mod, Nat.shiftRight_eq_div_pow, Nat.pow_mul]
    have e : (2 : Nat) ^ 8 = 256 := rfl
    rw [e, Nat.pow_succ, Nat.mod_mul, Nat.mul_comm]
    omega

/-- The loop after the first byte. -/
theorem intLoop_found (v i avail : Nat) (out : List UInt8) :
    (i ≤ avail → intLoop v i true avail out = (0, out ++ beBytes v i, avail - i)) ∧
    (avail < i → (intLoop v i true avail out).1 = -EINVAL ∧
      (intLoop v i true avail out).2.1.length = out.length + avail) := by
  induction i generalizing avail out with
  | zero => exact ⟨fun _ => by simp [intLoop, beBytes], fun h => by omega⟩
  | succ i ih =>
    have e : intLoop v (i + 1) true avail out =
        if avail = 0 then (-EINVAL, out, avail) else
          intLoop v i true (avail - 1) (out ++ [byte (v >>> (8 * i))]) := by
      rw [intLoop]; simp
    rw [e]
    constructor
    · intro h
      rw [if_neg (by omega), (ih (avail - 1) _).1 (by omega)]
      simp only [beBytes, List.append_assoc, List.singleton_append]
      congr 2
      omega
    · intro h
      by_cases h0 : avail = 0
      · rw [if_pos h0]; exact ⟨rfl, by dsimp only; omega⟩
      · rw [if_neg h0]
        have := (ih (avail - 1) (out ++ [byte (v >>> (8 * i))])).2 (by omega)
        refine ⟨this.1, ?_⟩
        rw [this.2]
        simp only [List.length_append, List.length_cons, List.length_nil]
        omega

/-- The contents octets. -/
def content (v : Nat) : Nat → List UInt8
  | 0 => []
  | i + 1 => if v >>> (8 * i) = 0 then content v i
    else if (v >>> (8 * i)).testBit 7 then 0 :: beBytes v (i + 1) else beBytes v (i + 1)

theorem intLoop_spec (v i avail : Nat) (ha : 0 < avail) :
    ((content v i).length ≤ avail →
      intLoop v i false avail [] = (0, content v i, avail - (content v i).length)) ∧
    (avail < (content v i).length → (intLoop v i false avail []).1 = -EINVAL ∧
      (intLoop v i false avail []).2.1.length ≤ avail) := by
  induction i with
  | zero => exact ⟨fun _ => by simp [intLoop, content], fun h => by simp [content] at h⟩
  | succ i ih =>
    unfold content
    by_cases hz : v >>> (8 * i) = 0
    · rw [if_pos hz]
      have e : intLoop v (i + 1) false avail [] = intLoop v i false avail [] := by
        rw [intLoop]; simp [hz]
      rw [e]
      exact ih
    · rw [if_neg hz]
      by_cases hb : (v >>> (8 * i)).testBit 7 = true
      · rw [if_pos hb]
        have e : intLoop v (i + 1) false avail [] =
            if avail - 1 = 0 then (-EINVAL, [0], avail - 1) else
              intLoop v i true (avail - 1 - 1) ([0] ++ [byte (v >>> (8 * i))]) := by
          rw [intLoop]; simp [hz, hb]
        rw [e]
        simp only [List.length_cons, beBytes_length]
        have hf := intLoop_found v i (avail - 1 - 1) ([0] ++ [byte (v >>> (8 * i))])
        constructor
        · intro h
          rw [if_neg (by omega), hf.1 (by omega)]
          refine Prod.ext rfl (Prod.ext ?_ ?_)
          · simp [beBytes]
          · dsimp only; omega
        · intro h
          by_cases h1 : avail - 1 = 0
          · rw [if_pos h1]; exact ⟨rfl, by simp; omega⟩
          · rw [if_neg h1]
            have := hf.2 (by omega)
            refine ⟨this.1, ?_⟩
            rw [this.2]
            simp only [List.length_append, List.length_cons, List.length_nil]
            omega
      · rw [if_neg hb]
        have e : intLoop v (i + 1) false avail [] =
            if avail = 0 then (-EINVAL, [], avail) else
              intLoop v i true (avail - 1) ([] ++ [byte (v >>> (8 * i))]) := by
          rw [intLoop]
          simp only [Bool.not_eq_true] at hb
          simp [hz, hb]
        rw [e, if_neg (by omega)]
        simp only [beBytes_length]
        have hf := intLoop_found v i (avail - 1) ([] ++ [byte (v >>> (8 * i))])
        constructor
        · intro h
          rw [hf.1 (by omega)]
          refine Prod.ext rfl (Prod.ext ?_ ?_)
          · simp [beBytes]
          · dsimp only; omega
        · intro h
          have := hf.2 (by omega)
          refine ⟨this.1, ?_⟩
          rw [this.2]
          simp only [List.length_append, List.length_cons, List.length_nil]
          omega

theorem testBit7 {b : Nat} (h : b < 256) : b.testBit 7 = decide (128 ≤ b) := by
  have : ∀ x : Fin 256, x.val.testBit 7 = decide (128 ≤ x.val) := by decide +kernel
  exact this ⟨b, h⟩

theorem content_der (v i : Nat) (hv : v < 256 ^ i) (h0 : v ≠ 0) :
    IsDerInt v (content v i) ∧ (content v i).length ≤ i + 1 := by
  induction i with
  | zero => simp at hv; omega
  | succ i ih =>
    unfold content
    have hdiv : v >>> (8 * i) = v / 256 ^ i := by
      rw [Nat.shiftRight_eq_div_pow, Nat.pow_mul]
    have hb256 : v / 256 ^ i < 256 := by
      rw [Nat.div_lt_iff_lt_mul (Nat.pow_pos (by decide))]
      rw [Nat.pow_succ, Nat.mul_comm] at hv
      exact hv
    by_cases hz : v >>> (8 * i) = 0
    · rw [if_pos hz]
      rw [hdiv] at hz
      have : v < 256 ^ i := by
        rcases Nat.div_eq_zero_iff.1 hz with h | h
        · have := Nat.pow_pos (n := i) (by decide : 0 < 256); omega
        · exact h
      have := ih this
      exact ⟨this.1, by omega⟩
    · rw [if_neg hz]
      have hval : beVal (beBytes v (i + 1)) = v := by rw [beVal_beBytes, Nat.mod_eq_of_lt hv]
      have hbn : (byte (v >>> (8 * i))).toNat = v >>> (8 * i) := by rw [hdiv]; exact byte_toNat hb256
      by_cases hb : (v >>> (8 * i)).testBit 7 = true
      · rw [if_pos hb]
        rw [testBit7 (by rw [hdiv]; exact hb256)] at hb
        have hb := of_decide_eq_true hb
        refine ⟨⟨by simp, ?_, ?_, ?_⟩, by simp [beBytes_length]⟩
        · rw [beVal_cons, hval]; simp
        · intro b h; injection h with h; subst h; decide
        · intro a b r h _
          rw [beBytes] at h
          injection h with _ h
          injection h with h _
          rw [← h, hbn]; exact hb
      · rw [if_neg hb]
        rw [testBit7 (by rw [hdiv]; exact hb256)] at hb
        have hb : ¬ 128 ≤ v >>> (8 * i) := fun h => hb (decide_eq_true h)
        refine ⟨⟨by simp [beBytes], hval, ?_, ?_⟩, by simp [beBytes_length]⟩
        · intro b h
          rw [beBytes] at h
          injection h with h
          rw [← h, hbn]; omega
        · intro a b r h ha
          rw [beBytes] at h
          injection h with h _
          rw [ha] at h
          have := congrArg UInt8.toNat h
          rw [hbn] at this
          exact absurd this hz

/-- C31 for positive values: there is a unique size; if it fits the encoder writes the DER encoding and
accounts for exactly these bytes; if it does not fit it refuses without leaving the buffer. -/
theorem encodeInteger_partial (avail : Nat) (v : Nat) (hv : v < 2 ^ 63) (h0 : v ≠ 0) (h3 : 3 ≤ avail) :
    ∃ c, IsDerInt v c ∧ c.length ≤ 9 ∧
      (2 + c.length ≤ avail → encodeInteger avail v =
        ⟨0, [0x02, byte c.length] ++ c, avail - (2 + c.length), false⟩) ∧
      (avail < 2 + c.length → (encodeInteger avail v).ret = -EINVAL ∧ (encodeInteger avail v).oob = false ∧
        (encodeInteger avail v).out.length ≤ avail) := by
  have hc := content_der v 8 (by have : (256 : Nat) ^ 8 = 2 ^ 64 := by decide
                                 omega) h0
  refine ⟨content v 8, hc.1, hc.2, ?_, ?_⟩
  · intro h
    unfold encodeInteger
    rw [if_neg (by omega), if_neg (by omega), if_neg (by omega)]
    dsimp only
    rw [Int.toNat_natCast, (intLoop_spec v 8 (avail - 2) (by omega)).1 (by omega)]
    dsimp only
    congr 1
    omega
  · intro h
    have := (intLoop_spec v 8 (avail - 2) (by omega)).2 (by omega)
    unfold encodeInteger
    rw [if_neg (by omega), if_neg (by omega), if_neg (by omega)]
    dsimp only
    rw [Int.toNat_natCast]
    refine ⟨this.1, rfl, ?_⟩
    simp only [List.length_append, List.length_cons, List.length_nil]
    omega

example : encodeInteger 8 (200 : Nat) = ⟨0, [2, 2, 0, 200], 4, false⟩ := by decide +kernel

/-- The value 0 is encoded correctly, but its content octet is not subtracted from the space. -/
theorem encodeInteger_zero (avail : Nat) (h : 3 ≤ avail) :
    (encodeInteger avail 0).out = [0x02, 1, 0] ∧ (encodeInteger avail 0).ret = 0 ∧
    (encodeInteger avail 0).avail = avail - (encodeInteger avail 0).out.length + 1 := by
  unfold encodeInteger
  rw [if_neg (by decide), if_neg (by omega), if_pos rfl]
  refine ⟨rfl, rfl, ?_⟩
  simp only [List.length_cons, List.length_nil]
  omega

/-- A refused call stores the length octet even if the buffer has less than two bytes. -/
theorem encodeInteger_overrun (avail : Nat) (h : avail < 2) (v : Int) : (encodeInteger avail v).oob = true := by
  unfold encodeInteger
  split
  · simp [h]
  · rw [if_pos (by omega)]; simp [h]

/-! ### OBJECT IDENTIFIER -/

/-- `asn1_encode_binary_oid` writes the DER form of its argument, or refuses. -/
theorem encodeBinaryOid_spec (avail : Nat) (oid : List UInt8) (h2 : 2 ≤ oid.length) (h : oid.length < 128) :
    encodeBinaryOid avail oid = encodeTlv 0x06 avail oid := by
  unfold encodeBinaryOid encodeTlv encodeLength
  rw [if_neg (by omega), if_neg (by omega)]
  by_cases ha : avail < 2 + oid.length
  · rw [if_pos ha]
    split
    · rfl
    · rw [if_neg (by omega), if_pos (by omega)]
      dsimp only
      rw [if_pos (by omega)]
  · rw [if_neg ha, if_neg (by omega), if_neg (by omega), if_pos (by omega)]
    dsimp only
    rw [if_neg (by omega)]
    congr 2
    omega

theorem oidDigits_prefix (os : List Nat) (avail : Nat) (out r : List UInt8) (a : Nat)
    (h : oidDigits os avail out = some (r, a)) : ∃ t, r = out ++ t := by
  induction os generalizing avail out with
  | nil =>
    unfold oidDigits at h
    injection h with h
    injection h with h _
    exact ⟨[], by simp [h]⟩
  | cons o os ih =>
    unfold oidDigits at h
    split at h
    · cases h
    · obtain ⟨t, ht⟩ := ih _ _ h
      exact ⟨_, by rw [ht, List.append_assoc]⟩

/-- `asn1_encode_oid` never writes the tag of an OBJECT IDENTIFIER for arcs other than `0.6`: the
first octet of the output is the first octet of the value.  (No caller in the library.) -/
theorem encodeOid_no_tag (avail : Nat) (o0 o1 : Nat) (rest : List Nat) (out : List UInt8) (a : Nat)
    (h : encodeOid avail (o0 :: o1 :: rest) = some (out, a)) :
    out.head? = some (byte (o0 * 40 + o1)) := by
  unfold encodeOid at h
  dsimp only at h
  split at h
  · cases h
  · split at h
    · cases h
    · split at h
      · cases h
      · rename_i r a' he
        injection h with h
        injection h with h _
        obtain ⟨t, ht⟩ := oidDigits_prefix _ _ _ _ _ he
        subst ht
        rw [← h]
        cases t <;> simp

/-- For example 1.2.840 yields `2a 01 48` instead of `06 03 2a 86 48`. -/
theorem encodeOid_witness : encodeOid 10 [1, 2, 840] = some ([0x2a, 0x01, 0x48], 5) := by decide +kernel

end LC.Asn1.Enc
