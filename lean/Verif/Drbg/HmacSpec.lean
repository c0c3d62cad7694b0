import Verif.Hmac.Spec
/-
NIST SP 800-90A Rev. 1, HMAC_DRBG (section 10.1.2), for a MAC `M key text`.
-/
namespace LC.Drbg.Spec.Hmac

abbrev Bytes := List UInt8

/-- Working state: `Key`, `V`. -/
structure State where
  K : Bytes
  V : Bytes

/-- HMAC_DRBG_Update (10.1.2.2). -/
def update (M : Bytes → Bytes → Bytes) (s : State) (data : Bytes) : State :=
  let K := M s.K (s.V ++ [0x00] ++ data)
  let V := M K s.V
  if data = [] then { K := K, V := V }
  else
    let K2 := M K (V ++ [0x01] ++ data)
    { K := K2, V := M K2 V }

/-- HMAC_DRBG_Instantiate_algorithm (10.1.2.3); the nonce is part of `entropy`. -/
def instantiate (M : Bytes → Bytes → Bytes) (outlen : Nat) (entropy pers : Bytes) : State :=
  update M { K := List.replicate outlen 0x00, V := List.replicate outlen 0x01 } (entropy ++ pers)

/-- HMAC_DRBG_Reseed_algorithm (10.1.2.4). -/
def reseed (M : Bytes → Bytes → Bytes) (s : State) (entropy addtl : Bytes) : State :=
  update M s (entropy ++ addtl)

/-- `V_i`: the `i` times iterated MAC of `V`. -/
def chain (M : Bytes → Bytes → Bytes) (K V : Bytes) : Nat → Bytes
  | 0 => V
  | i + 1 => M K (chain M K V i)

/-- HMAC_DRBG_Generate_algorithm (10.1.2.5) without the reseed interval test: the output is the
leftmost `n` bytes of `V_1 || V_2 || ...`, and the last `V_i` computed goes into the update. -/
def generate (M : Bytes → Bytes → Bytes) (outlen : Nat) (s : State) (addtl : Bytes) (n : Nat) : State × Bytes :=
  let s := if addtl = [] then s else update M s addtl
  let out := ((List.range n).flatMap fun i => chain M s.K s.V (i + 1)).take n
  (update M { s with V := chain M s.K s.V ((n + outlen - 1) / outlen) } addtl, out)

/-- The first seeding instantiates, later ones reseed. -/
def seedTo (M : Bytes → Bytes → Bytes) (outlen : Nat) (e p : Bytes) : Option State → State
  | none => instantiate M outlen e p
  | some s => reseed M s e p

end LC.Drbg.Spec.Hmac
