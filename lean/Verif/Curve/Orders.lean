import Verif.Curve.Prime
/-!
# The two large prime factors of the group orders
-/
namespace LC.Curve

theorem prime_6418733 : Nat.Prime 6418733 := by
  refine pratt 6418733 2 24 [2, 2, 19, 84457] ?_ (by decide) (by decide +kernel) (by decide +kernel)
    (by decide +kernel) (by decide +kernel)
  intro f hf
  simp only [List.mem_cons, List.not_mem_nil, or_false] at hf
  rcases hf with rfl | rfl | rfl | rfl
  · norm_num
  · norm_num
  · norm_num
  · norm_num

theorem prime_1110318119 : Nat.Prime 1110318119 := by
  refine pratt 1110318119 7 32 [2, 7, 13, 487, 12527] ?_ (by decide) (by decide +kernel) (by decide +kernel)
    (by decide +kernel) (by decide +kernel)
  intro f hf
  simp only [List.mem_cons, List.not_mem_nil, or_false] at hf
  rcases hf with rfl | rfl | rfl | rfl | rfl
  · norm_num
  · norm_num
  · norm_num
  · norm_num
  · norm_num

theorem prime_2220636239 : Nat.Prime 2220636239 := by
  refine pratt 2220636239 23 33 [2, 1110318119] ?_ (by decide) (by decide +kernel) (by decide +kernel)
    (by decide +kernel) (by decide +kernel)
  intro f hf
  simp only [List.mem_cons, List.not_mem_nil, or_false] at hf
  rcases hf with rfl | rfl
  · norm_num
  · exact prime_1110318119

theorem prime_743104567 : Nat.Prime 743104567 := by
  refine pratt 743104567 6 31 [2, 3, 3, 3637, 11351] ?_ (by decide) (by decide +kernel) (by decide +kernel)
    (by decide +kernel) (by decide +kernel)
  intro f hf
  simp only [List.mem_cons, List.not_mem_nil, or_false] at hf
  rcases hf with rfl | rfl | rfl | rfl | rfl
  · norm_num
  · norm_num
  · norm_num
  · norm_num
  · norm_num

theorem prime_1013266244677 : Nat.Prime 1013266244677 := by
  refine pratt 1013266244677 2 41 [2, 2, 3, 7, 383, 3911, 8053] ?_ (by decide) (by decide +kernel) (by decide +kernel)
    (by decide +kernel) (by decide +kernel)
  intro f hf
  simp only [List.mem_cons, List.not_mem_nil, or_false] at hf
  rcases hf with rfl | rfl | rfl | rfl | rfl | rfl | rfl
  · norm_num
  · norm_num
  · norm_num
  · norm_num
  · norm_num
  · norm_num
  · norm_num

theorem prime_5171003929967 : Nat.Prime 5171003929967 := by
  refine pratt 5171003929967 5 44 [2, 7, 31, 181, 2281, 28859] ?_ (by decide) (by decide +kernel) (by decide +kernel)
    (by decide +kernel) (by decide +kernel)
  intro f hf
  simp only [List.mem_cons, List.not_mem_nil, or_false] at hf
  rcases hf with rfl | rfl | rfl | rfl | rfl | rfl
  · norm_num
  · norm_num
  · norm_num
  · norm_num
  · norm_num
  · norm_num

theorem prime_22561162540501040539 : Nat.Prime 22561162540501040539 := by
  refine pratt 22561162540501040539 3 66 [2, 3, 727169, 5171003929967] ?_ (by decide) (by decide +kernel) (by decide +kernel)
    (by decide +kernel) (by decide +kernel)
  intro f hf
  simp only [List.mem_cons, List.not_mem_nil, or_false] at hf
  rcases hf with rfl | rfl | rfl | rfl
  · norm_num
  · norm_num
  · norm_num
  · exact prime_5171003929967

theorem prime_203852586375664218368381551393371968928013 : Nat.Prime 203852586375664218368381551393371968928013 := by
  refine pratt 203852586375664218368381551393371968928013 2 139 [2, 2, 3, 743104567, 1013266244677, 22561162540501040539] ?_ (by decide) (by decide +kernel) (by decide +kernel)
    (by decide +kernel) (by decide +kernel)
  intro f hf
  simp only [List.mem_cons, List.not_mem_nil, or_false] at hf
  rcases hf with rfl | rfl | rfl | rfl | rfl | rfl
  · norm_num
  · norm_num
  · norm_num
  · exact prime_743104567
  · exact prime_1013266244677
  · exact prime_22561162540501040539

theorem prime_104719073621178708975837602950775180438320278101 : Nat.Prime 104719073621178708975837602950775180438320278101 := by
  refine pratt 104719073621178708975837602950775180438320278101 2 158 [2, 2, 5, 5, 11, 467, 203852586375664218368381551393371968928013] ?_ (by decide) (by decide +kernel) (by decide +kernel)
    (by decide +kernel) (by decide +kernel)
  intro f hf
  simp only [List.mem_cons, List.not_mem_nil, or_false] at hf
  rcases hf with rfl | rfl | rfl | rfl | rfl | rfl | rfl
  · norm_num
  · norm_num
  · norm_num
  · norm_num
  · norm_num
  · norm_num
  · exact prime_203852586375664218368381551393371968928013

theorem prime_27413359092552162435694767700453926735143482401279781 : Nat.Prime 27413359092552162435694767700453926735143482401279781 := by
  refine pratt 27413359092552162435694767700453926735143482401279781 2 176 [2, 2, 3, 5, 4363, 104719073621178708975837602950775180438320278101] ?_ (by decide) (by decide +kernel) (by decide +kernel)
    (by decide +kernel) (by decide +kernel)
  intro f hf
  simp only [List.mem_cons, List.not_mem_nil, or_false] at hf
  rcases hf with rfl | rfl | rfl | rfl | rfl | rfl
  · norm_num
  · norm_num
  · norm_num
  · norm_num
  · norm_num
  · exact prime_104719073621178708975837602950775180438320278101

theorem T_prime : Nat.Prime 14474011154664524427946373126085988481603263447650325797860494125407373907997 := by
  refine pratt 14474011154664524427946373126085988481603263447650325797860494125407373907997 2 254 [2, 2, 79, 117223, 6418733, 2220636239, 27413359092552162435694767700453926735143482401279781] ?_ (by decide) (by decide +kernel) (by decide +kernel)
    (by decide +kernel) (by decide +kernel)
  intro f hf
  simp only [List.mem_cons, List.not_mem_nil, or_false] at hf
  rcases hf with rfl | rfl | rfl | rfl | rfl | rfl | rfl
  · norm_num
  · norm_num
  · norm_num
  · norm_num
  · exact prime_6418733
  · exact prime_2220636239
  · exact prime_27413359092552162435694767700453926735143482401279781

theorem prime_14741173 : Nat.Prime 14741173 := by
  refine pratt 14741173 2 25 [2, 2, 3, 3, 409477] ?_ (by decide) (by decide +kernel) (by decide +kernel)
    (by decide +kernel) (by decide +kernel)
  intro f hf
  simp only [List.mem_cons, List.not_mem_nil, or_false] at hf
  rcases hf with rfl | rfl | rfl | rfl | rfl
  · norm_num
  · norm_num
  · norm_num
  · norm_num
  · norm_num

theorem prime_58964693 : Nat.Prime 58964693 := by
  refine pratt 58964693 2 27 [2, 2, 14741173] ?_ (by decide) (by decide +kernel) (by decide +kernel)
    (by decide +kernel) (by decide +kernel)
  intro f hf
  simp only [List.mem_cons, List.not_mem_nil, or_false] at hf
  rcases hf with rfl | rfl | rfl
  · norm_num
  · norm_num
  · exact prime_14741173

theorem prime_3044861653679985063343 : Nat.Prime 3044861653679985063343 := by
  refine pratt 3044861653679985063343 5 73 [2, 3, 11, 30703, 82163, 132667, 137849] ?_ (by decide) (by decide +kernel) (by decide +kernel)
    (by decide +kernel) (by decide +kernel)
  intro f hf
  simp only [List.mem_cons, List.not_mem_nil, or_false] at hf
  rcases hf with rfl | rfl | rfl | rfl | rfl | rfl | rfl
  · norm_num
  · norm_num
  · norm_num
  · norm_num
  · norm_num
  · norm_num
  · norm_num

theorem prime_198211423230930754013084525763697 : Nat.Prime 198211423230930754013084525763697 := by
  refine pratt 198211423230930754013084525763697 5 109 [2, 2, 2, 2, 3, 23, 58964693, 3044861653679985063343] ?_ (by decide) (by decide +kernel) (by decide +kernel)
    (by decide +kernel) (by decide +kernel)
  intro f hf
  simp only [List.mem_cons, List.not_mem_nil, or_false] at hf
  rcases hf with rfl | rfl | rfl | rfl | rfl | rfl | rfl | rfl
  · norm_num
  · norm_num
  · norm_num
  · norm_num
  · norm_num
  · norm_num
  · exact prime_58964693
  · exact prime_3044861653679985063343

theorem prime_292386187 : Nat.Prime 292386187 := by
  refine pratt 292386187 2 30 [2, 3, 3, 3, 3, 307, 5879] ?_ (by decide) (by decide +kernel) (by decide +kernel)
    (by decide +kernel) (by decide +kernel)
  intro f hf
  simp only [List.mem_cons, List.not_mem_nil, or_false] at hf
  rcases hf with rfl | rfl | rfl | rfl | rfl | rfl | rfl
  · norm_num
  · norm_num
  · norm_num
  · norm_num
  · norm_num
  · norm_num
  · norm_num

theorem prime_213441916511 : Nat.Prime 213441916511 := by
  refine pratt 213441916511 13 39 [2, 5, 73, 292386187] ?_ (by decide) (by decide +kernel) (by decide +kernel)
    (by decide +kernel) (by decide +kernel)
  intro f hf
  simp only [List.mem_cons, List.not_mem_nil, or_false] at hf
  rcases hf with rfl | rfl | rfl | rfl
  · norm_num
  · norm_num
  · norm_num
  · exact prime_292386187

theorem prime_1224481 : Nat.Prime 1224481 := by
  refine pratt 1224481 13 22 [2, 2, 2, 2, 2, 3, 5, 2551] ?_ (by decide) (by decide +kernel) (by decide +kernel)
    (by decide +kernel) (by decide +kernel)
  intro f hf
  simp only [List.mem_cons, List.not_mem_nil, or_false] at hf
  rcases hf with rfl | rfl | rfl | rfl | rfl | rfl | rfl | rfl
  · norm_num
  · norm_num
  · norm_num
  · norm_num
  · norm_num
  · norm_num
  · norm_num
  · norm_num

theorem prime_1257559732178653 : Nat.Prime 1257559732178653 := by
  refine pratt 1257559732178653 2 52 [2, 2, 3, 7, 23, 531581, 1224481] ?_ (by decide) (by decide +kernel) (by decide +kernel)
    (by decide +kernel) (by decide +kernel)
  intro f hf
  simp only [List.mem_cons, List.not_mem_nil, or_false] at hf
  rcases hf with rfl | rfl | rfl | rfl | rfl | rfl | rfl
  · norm_num
  · norm_num
  · norm_num
  · norm_num
  · norm_num
  · norm_num
  · exact prime_1224481

theorem prime_4434155615661930479 : Nat.Prime 4434155615661930479 := by
  refine pratt 4434155615661930479 17 63 [2, 41, 43, 1257559732178653] ?_ (by decide) (by decide +kernel) (by decide +kernel)
    (by decide +kernel) (by decide +kernel)
  intro f hf
  simp only [List.mem_cons, List.not_mem_nil, or_false] at hf
  rcases hf with rfl | rfl | rfl | rfl
  · norm_num
  · norm_num
  · norm_num
  · exact prime_1257559732178653

theorem prime_172054593956031949258510691 : Nat.Prime 172054593956031949258510691 := by
  refine pratt 172054593956031949258510691 2 89 [2, 5, 1361, 2851, 4434155615661930479] ?_ (by decide) (by decide +kernel) (by decide +kernel)
    (by decide +kernel) (by decide +kernel)
  intro f hf
  simp only [List.mem_cons, List.not_mem_nil, or_false] at hf
  rcases hf with rfl | rfl | rfl | rfl | rfl
  · norm_num
  · norm_num
  · norm_num
  · norm_num
  · exact prime_4434155615661930479

theorem prime_19757330305831588566944191468367130476339 : Nat.Prime 19757330305831588566944191468367130476339 := by
  refine pratt 19757330305831588566944191468367130476339 2 135 [2, 269, 213441916511, 172054593956031949258510691] ?_ (by decide) (by decide +kernel) (by decide +kernel)
    (by decide +kernel) (by decide +kernel)
  intro f hf
  simp only [List.mem_cons, List.not_mem_nil, or_false] at hf
  rcases hf with rfl | rfl | rfl | rfl
  · norm_num
  · norm_num
  · exact prime_213441916511
  · exact prime_172054593956031949258510691

theorem prime_276602624281642239937218680557139826668747 : Nat.Prime 276602624281642239937218680557139826668747 := by
  refine pratt 276602624281642239937218680557139826668747 2 139 [2, 7, 19757330305831588566944191468367130476339] ?_ (by decide) (by decide +kernel) (by decide +kernel)
    (by decide +kernel) (by decide +kernel)
  intro f hf
  simp only [List.mem_cons, List.not_mem_nil, or_false] at hf
  rcases hf with rfl | rfl | rfl
  · norm_num
  · norm_num
  · exact prime_19757330305831588566944191468367130476339

theorem L_prime : Nat.Prime 7237005577332262213973186563042994240857116359379907606001950938285454250989 := by
  refine pratt 7237005577332262213973186563042994240857116359379907606001950938285454250989 2 254 [2, 2, 3, 11, 198211423230930754013084525763697, 276602624281642239937218680557139826668747] ?_ (by decide) (by decide +kernel) (by decide +kernel)
    (by decide +kernel) (by decide +kernel)
  intro f hf
  simp only [List.mem_cons, List.not_mem_nil, or_false] at hf
  rcases hf with rfl | rfl | rfl | rfl | rfl | rfl
  · norm_num
  · norm_num
  · norm_num
  · norm_num
  · exact prime_198211423230930754013084525763697
  · exact prime_276602624281642239937218680557139826668747

/-- The order of the prime order subgroup of curve25519 (RFC 7748, section 4.1). -/
abbrev L : Nat := 7237005577332262213973186563042994240857116359379907606001950938285454250989
/-- The order of the prime order subgroup of its quadratic twist. -/
abbrev T : Nat := 14474011154664524427946373126085988481603263447650325797860494125407373907997

theorem L_eq : L = 2 ^ 252 + 27742317777372353535851937790883648493 := by decide
theorem T_eq : 8 * L + 4 * T = 2 * P + 2 := by decide

end LC.Curve
