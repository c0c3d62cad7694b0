import Verif.Acc.Model

/-!
# Properties of the text form of IP addresses
-/

namespace LC.Acc

/-! ### Specification -/

/-- The text cut at every delimiter. -/
def fields (d : Char) : List Char → List (List Char)
  | [] => [[]]
  | c :: cs =>
    if c = d then [] :: fields d cs
    else match fields d cs with
      | [] => [[c]]
      | f :: fs => (c :: f) :: fs

/-- The parts that are not empty. -/
def parts (d : Char) (s : List Char) : List (List Char) := (fields d s).filter (· ≠ [])

/-- The memory `m` after the bytes `vs` were stored at its beginning. -/
def stored (m vs : List Nat) : List Nat := vs ++ m.drop vs.length

/-! ### The C library -/

theorem fields_ne (d : Char) (s : List Char) : fields d s ≠ [] := by
  cases s with
  | nil => simp [fields]
  | cons c cs =>
    unfold fields
    split
    · simp
    · split <;> simp

theorem fields_cons_ne {d c : Char} (h : c ≠ d) (cs : List Char) :
    ∃ f fs, fields d cs = f :: fs ∧ fields d (c :: cs) = (c :: f) :: fs := by
  cases hf : fields d cs with
  | nil => exact absurd hf (fields_ne d cs)
  | cons f fs => exact ⟨f, fs, rfl, by simp [fields, h, hf]⟩

theorem fields_take (d : Char) (s : List Char) :
    ∃ fs, fields d s = s.takeWhile (· != d) :: fs ∧
      fs.filter (· ≠ []) = parts d ((s.dropWhile (· != d)).drop 1) := by
  induction s with
  | nil => exact ⟨[], by simp [fields], by simp [parts, fields]⟩
  | cons c cs ih =>
    by_cases h : c = d
    · subst h
      exact ⟨fields c cs, by simp [fields], by simp [parts]⟩
    · obtain ⟨fs, h1, h2⟩ := ih
      refine ⟨fs, ?_, ?_⟩
      · simp [fields, h, h1]
      · simpa [h] using h2

/-- `strtok_r` delivers the parts one by one. -/
theorem strtok_parts (d : Char) (s : List Char) :
    (strtok d s = none ∧ parts d s = []) ∨
      ∃ t save, strtok d s = some (t, save) ∧ parts d s = t :: parts d save := by
  induction s with
  | nil => left; simp [strtok, parts, fields]
  | cons c cs ih =>
    by_cases h : c = d
    · subst h
      have e1 : strtok c (c :: cs) = strtok c cs := by simp [strtok]
      have e2 : parts c (c :: cs) = parts c cs := by simp [parts, fields]
      rw [e1, e2]
      exact ih
    · right
      obtain ⟨fs, h1, h2⟩ := fields_take d (c :: cs)
      refine ⟨(c :: cs).takeWhile (· != d), ((c :: cs).dropWhile (· != d)).drop 1, ?_, ?_⟩
      · have : (c :: cs).dropWhile (· == d) = c :: cs := by simp [h]
        simp only [strtok, this]
      · unfold parts
        rw [h1, List.filter_cons_of_pos (by simp [h]), h2]
        rfl

theorem parts_count (d : Char) (s : List Char) : (parts d s).length ≤ s.count d + 1 := by
  have : (fields d s).length = s.count d + 1 := by
    induction s with
    | nil => simp [fields]
    | cons c cs ih =>
      by_cases h : c = d
      · subst h; simp [fields, ih]
      · obtain ⟨f, fs, h1, h2⟩ := fields_cons_ne h cs
        rw [h2, List.count_cons_of_ne (by simpa using h), ← ih, h1]
        rfl
  exact this ▸ List.length_filter_le _ _

theorem fields_no {d : Char} {t : List Char} (h : d ∉ t) : fields d t = [t] := by
  induction t with
  | nil => rfl
  | cons c cs ih =>
    simp only [List.mem_cons, not_or] at h
    have : c ≠ d := fun e => h.1 e.symm
    simp [fields, this, ih h.2]

theorem fields_app {d : Char} {t : List Char} (h : d ∉ t) (s : List Char) :
    fields d (t ++ d :: s) = t :: fields d s := by
  induction t with
  | nil => simp [fields]
  | cons c cs ih =>
    simp only [List.mem_cons, not_or] at h
    have : c ≠ d := fun e => h.1 e.symm
    simp [fields, this, ih h.2]

theorem fields_join {d : Char} {ts : List (List Char)} (hne : ts ≠ []) (h : ∀ t ∈ ts, d ∉ t) :
    fields d (joinWith d ts) = ts := by
  induction ts with
  | nil => exact absurd rfl hne
  | cons t ts ih =>
    cases ts with
    | nil => exact fields_no (h t (by simp))
    | cons u us =>
      show fields d (t ++ d :: joinWith d (u :: us)) = _
      rw [fields_app (h t (by simp)), ih (by simp) (fun x hx => h x (List.mem_cons_of_mem _ hx))]

theorem parts_join {d : Char} {ts : List (List Char)} (hne : ts ≠ []) (h : ∀ t ∈ ts, t ≠ [] ∧ d ∉ t) :
    parts d (joinWith d ts) = ts := by
  unfold parts
  rw [fields_join hne (fun t ht => (h t ht).2), List.filter_eq_self]
  intro t ht
  simpa using (h t ht).1

/-! ### The loop -/

theorem set_write (ip : List Nat) (i v : Nat) (vs : List Nat) (hi : i < ip.length) :
    (ip.set i v).take (i + 1) ++ vs ++ (ip.set i v).drop (i + 1 + vs.length)
      = ip.take i ++ (v :: vs) ++ ip.drop (i + (v :: vs).length) := by
  have e1 : (ip.set i v).take (i + 1) = ip.take i ++ [v] := by
    rw [List.take_succ, List.take_set, List.set_eq_of_length_le (by simp; omega), List.getElem?_set_self hi]
    rfl
  have e2 : (ip.set i v).drop (i + 1 + vs.length) = ip.drop (i + (v :: vs).length) := by
    rw [List.drop_set_of_lt (by omega)]
    congr 1
    simp; omega
  rw [e1, e2]; simp

theorem encLoop_ok (d : Char) (base : Nat) : ∀ (n i : Nat) (s : List Char) (ip : List Nat),
    i + n ≤ ip.length → n ≤ (parts d s).length →
    (∀ t ∈ (parts d s).take n, strtoul base t ≤ 255) →
    encLoop d base n i (strtok d s) ip =
      (0, ip.take i ++ ((parts d s).take n).map (strtoul base) ++ ip.drop (i + n)) := by
  intro n
  induction n with
  | zero => intro i s ip _ _ _; simp [encLoop]
  | succ n ih =>
    intro i s ip hi hn hv
    rcases strtok_parts d s with ⟨_, h2⟩ | ⟨t, save, h1, h2⟩
    · rw [h2] at hn; simp at hn
    · rw [h2] at hn hv
      rw [List.take_succ_cons] at hv
      have ht : ¬ strtoul base t > 255 := by have := hv t (by simp); omega
      have hlen : (((parts d save).take n).map (strtoul base)).length = n := by
        simp at hn ⊢; omega
      rw [h1, h2]
      simp only [encLoop, if_neg ht]
      rw [ih (i + 1) save (ip.set i (strtoul base t)) (by simp; omega) (by simpa using hn)
        (fun u hu => hv u (List.mem_cons_of_mem _ hu))]
      have := set_write ip i (strtoul base t) (((parts d save).take n).map (strtoul base)) (by omega)
      rw [List.length_cons, hlen] at this
      rw [List.take_succ_cons, List.map_cons, this]

theorem encLoop_err (d : Char) (base : Nat) : ∀ (n i : Nat) (s : List Char) (ip : List Nat),
    ¬ (n ≤ (parts d s).length ∧ ∀ t ∈ (parts d s).take n, strtoul base t ≤ 255) →
    (encLoop d base n i (strtok d s) ip).1 = -EINVAL := by
  intro n
  induction n with
  | zero => intro i s ip h; exact absurd ⟨Nat.zero_le _, by simp⟩ h
  | succ n ih =>
    intro i s ip h
    rcases strtok_parts d s with ⟨h1, _⟩ | ⟨t, save, h1, h2⟩
    · rw [h1]; rfl
    · rw [h1]
      simp only [encLoop]
      split
      · rfl
      · rename_i hv
        apply ih
        rintro ⟨ha, hb⟩
        apply h
        rw [h2]
        refine ⟨by simpa using ha, ?_⟩
        rw [List.take_succ_cons]
        intro u hu
        rcases List.mem_cons.mp hu with rfl | hu
        · omega
        · exact hb u hu

/-- Only the bytes from `i` to `i + n` may change. -/
theorem encLoop_mem (d : Char) (base : Nat) : ∀ (n i : Nat) (r : Option (List Char × List Char)) (ip : List Nat),
    (encLoop d base n i r ip).2.length = ip.length ∧
      (encLoop d base n i r ip).2.drop (i + n) = ip.drop (i + n) := by
  intro n
  induction n with
  | zero => intro i r ip; simp [encLoop]
  | succ n ih =>
    intro i r ip
    cases r with
    | none => simp [encLoop]
    | some r =>
      obtain ⟨t, save⟩ := r
      simp only [encLoop]
      split
      · simp
      · obtain ⟨h1, h2⟩ := ih (i + 1) (strtok d save) (ip.set i (strtoul base t))
        refine ⟨by simpa using h1, ?_⟩
        rw [show i + (n + 1) = i + 1 + n by omega, h2, List.drop_set_of_lt (by omega)]

/-! ### C118 -/

/-- The delimiter, the number of bytes and the base a text stands for. -/
def kind (name : List Char) : Char × Nat × Nat := if ':' ∈ name then (':', 16, 16) else ('.', 4, 10)

/-- C118 (exact behaviour, for all texts and buffers of at least `*ip_len` bytes).  The call succeeds exactly if the text
has at least 4 (with a colon: 16) parts that are not empty and each of the first 4 (16) begins with a number up to 255;
these numbers are the result, `*ip_len` is their number and the rest of the buffer is as before.  Otherwise an error is
returned, `*ip_len` is unchanged and nothing behind the first 4 (16) bytes is written. -/
theorem c118_accepted (name : List Char) (ip : List Nat) (ipLen : Nat) (hbuf : ipLen ≤ ip.length) :
    let (d, n, base) := kind name
    let vs := ((parts d name).take n).map (strtoul base)
    (n ≤ ipLen → n ≤ (parts d name).length → (∀ v ∈ vs, v ≤ 255) →
      encSanIp name ip ipLen = ⟨0, stored ip vs, n⟩ ∧ vs.length = n) ∧
    (¬ (n ≤ ipLen ∧ n ≤ (parts d name).length ∧ ∀ v ∈ vs, v ≤ 255) →
      (encSanIp name ip ipLen).ret < 0 ∧ (encSanIp name ip ipLen).ipLen = ipLen ∧
      (encSanIp name ip ipLen).ip.length = ip.length ∧
      (encSanIp name ip ipLen).ip.drop n = ip.drop n) := by
  obtain ⟨d, n, base, hk, he⟩ : ∃ d n base, kind name = (d, n, base) ∧ encSanIp name ip ipLen =
      (if ipLen < n then ⟨-EOVERFLOW, ip, ipLen⟩
       else if (encLoop d base n 0 (strtok d name) ip).1 = 0
         then ⟨0, (encLoop d base n 0 (strtok d name) ip).2, n⟩
         else ⟨(encLoop d base n 0 (strtok d name) ip).1, (encLoop d base n 0 (strtok d name) ip).2, ipLen⟩) := by
    by_cases h : ':' ∈ name
    · exact ⟨':', 16, 16, by simp [kind, h], by simp [encSanIp, h]⟩
    · exact ⟨'.', 4, 10, by simp [kind, h], by simp [encSanIp, h]⟩
  rw [hk]
  dsimp only
  constructor
  · intro h1 h2 h3
    have := encLoop_ok d base n 0 name ip (by omega) h2 (fun t ht => h3 _ (List.mem_map_of_mem ht))
    have hl : (((parts d name).take n).map (strtoul base)).length = n := by simp; omega
    rw [he, if_neg (by omega), this]
    simp only [if_true]
    refine ⟨?_, hl⟩
    simp [stored]
    omega
  · intro h
    rw [he]
    by_cases hlt : ipLen < n
    · rw [if_pos hlt]; simp [EOVERFLOW]
    · rw [if_neg hlt]
      have := encLoop_err d base n 0 name ip (by
        rintro ⟨ha, hb⟩
        apply h
        refine ⟨by omega, ha, ?_⟩
        intro v hv
        obtain ⟨t, ht, rfl⟩ := List.mem_map.mp hv
        exact hb t ht)
      rw [this, if_neg (by simp [EINVAL])]
      have hm := encLoop_mem d base n 0 (strtok d name) ip
      rw [Nat.zero_add] at hm
      exact ⟨by simp [EINVAL], rfl, hm.1, hm.2⟩

theorem dec_text : ∀ v : Fin 256, Nat.toDigits 10 v ≠ [] ∧ '.' ∉ Nat.toDigits 10 v ∧ ':' ∉ Nat.toDigits 10 v ∧
    strtoul 10 (Nat.toDigits 10 v) = v := by decide +kernel

theorem hex_text : ∀ v : Fin 256, Nat.toDigits 16 v ≠ [] ∧ ':' ∉ Nat.toDigits 16 v ∧
    strtoul 16 (Nat.toDigits 16 v) = v := by decide +kernel

theorem mem_join {d c : Char} {ts : List (List Char)} (h : c ∈ joinWith d ts) : c = d ∨ ∃ t ∈ ts, c ∈ t := by
  induction ts with
  | nil => simp [joinWith] at h
  | cons t ts ih =>
    cases ts with
    | nil => exact .inr ⟨t, by simp, h⟩
    | cons u us =>
      have h : c ∈ t ++ d :: joinWith d (u :: us) := h
      rcases List.mem_append.mp h with h | h
      · exact .inr ⟨t, by simp, h⟩
      · rcases List.mem_cons.mp h with h | h
        · exact .inl h
        · rcases ih h with h | ⟨x, hx, h⟩
          · exact .inl h
          · exact .inr ⟨x, List.mem_cons_of_mem _ hx, h⟩

theorem join_mem {d : Char} {t u : List Char} {ts : List (List Char)} : d ∈ joinWith d (t :: u :: ts) := by
  show d ∈ t ++ d :: joinWith d (u :: ts)
  simp

/-- The text of numbers. -/
theorem enc_join (d : Char) (n base : Nat) (f : Nat → List Char) (hn : 2 ≤ n)
    (hd : (d, n, base) = (':', 16, 16) ∨ (d, n, base) = ('.', 4, 10))
    (hf : ∀ v < 256, f v ≠ [] ∧ d ∉ f v ∧ (':' ∉ f v) ∧ strtoul base (f v) = v)
    (vs : List Nat) (hl : vs.length = n) (hv : ∀ v ∈ vs, v < 256) (ip : List Nat) (ipLen : Nat)
    (hbuf : ipLen ≤ ip.length) (hlen : n ≤ ipLen) :
    encSanIp (joinWith d (vs.map f)) ip ipLen = ⟨0, stored ip vs, n⟩ := by
  have hk : kind (joinWith d (vs.map f)) = (d, n, base) := by
    rcases hd with hd | hd
    · injection hd with hd h; injection h with h1 h2
      subst hd h1 h2
      match vs, hl with
      | a :: b :: vs, _ => simp only [kind, List.map_cons, if_pos join_mem]
    · injection hd with hd h; injection h with h1 h2
      subst hd h1 h2
      have : ':' ∉ joinWith '.' (vs.map f) := by
        intro h
        rcases mem_join h with h | ⟨t, ht, h⟩
        · exact absurd h (by decide)
        · obtain ⟨v, hv', rfl⟩ := List.mem_map.mp ht
          exact (hf v (hv v hv')).2.2.1 h
      simp [kind, this]
  have hp : parts d (joinWith d (vs.map f)) = vs.map f := by
    apply parts_join
    · intro h
      have := congrArg List.length h
      simp at this; subst this; simp at hl; omega
    · intro t ht
      obtain ⟨v, hv', rfl⟩ := List.mem_map.mp ht
      exact ⟨(hf v (hv v hv')).1, (hf v (hv v hv')).2.1⟩
  have h := c118_accepted (joinWith d (vs.map f)) ip ipLen hbuf
  rw [hk] at h
  simp only [hp] at h
  have e : ((vs.map f).take n).map (strtoul base) = vs := by
    rw [List.take_of_length_le (by simp; omega), List.map_map]
    conv => rhs; rw [← List.map_id vs]
    apply List.map_congr_left
    intro v hv'
    exact (hf v (hv v hv')).2.2.2
  rw [e] at h
  exact (h.1 hlen (by simp; omega) (fun v hv' => by have := hv v hv'; omega)).1

/-- C118: the dotted decimal text of any IPv4 address is turned into the bytes of the address. -/
theorem c118_ipv4 (a b c d : Nat) (ha : a < 256) (hb : b < 256) (hc : c < 256) (hd : d < 256)
    (ip : List Nat) (ipLen : Nat) (hbuf : ipLen ≤ ip.length) (hlen : 4 ≤ ipLen) :
    encSanIp (Nat.toDigits 10 a ++ '.' :: (Nat.toDigits 10 b ++ '.' :: (Nat.toDigits 10 c ++ '.' :: Nat.toDigits 10 d)))
      ip ipLen = ⟨0, [a, b, c, d] ++ ip.drop 4, 4⟩ := by
  have := enc_join '.' 4 10 (Nat.toDigits 10) (by omega) (.inr rfl)
    (fun v hv => by
      obtain ⟨h1, h2, h3, h4⟩ := dec_text ⟨v, hv⟩
      exact ⟨h1, h2, h3, h4⟩)
    [a, b, c, d] rfl (by simp [ha, hb, hc, hd]) ip ipLen hbuf hlen
  exact this

example : encSanIp "192.168.17.5".toList [7, 7, 7, 7, 7, 7] 5 = ⟨0, [192, 168, 17, 5, 7, 7], 4⟩ := by decide +kernel

/-- C118 (memory, all texts and lengths): the buffer is written at most in its first `*ip_len` bytes. -/
theorem c118_memory (name : List Char) (ip : List Nat) (ipLen : Nat) (hbuf : ipLen ≤ ip.length) :
    (encSanIp name ip ipLen).ip.length = ip.length ∧
    (encSanIp name ip ipLen).ip.drop ipLen = ip.drop ipLen ∧
    (encSanIp name ip ipLen).ipLen ≤ ipLen := by
  have key : ∀ (d : Char) (n base : Nat), n ≤ ipLen →
      (encLoop d base n 0 (strtok d name) ip).2.length = ip.length ∧
      (encLoop d base n 0 (strtok d name) ip).2.drop ipLen = ip.drop ipLen := by
    intro d n base h
    obtain ⟨h1, h2⟩ := encLoop_mem d base n 0 (strtok d name) ip
    refine ⟨h1, ?_⟩
    rw [Nat.zero_add] at h2
    have := congrArg (List.drop (ipLen - n)) h2
    simpa [List.drop_drop, Nat.add_sub_cancel' h] using this
  simp only [encSanIp]
  generalize (if (name.contains ':') = true then 16 else 4) = n
  generalize (if (name.contains ':') = true then ':' else '.') = d
  generalize (if (name.contains ':') = true then 16 else 10) = base
  split
  · simp
  · rename_i h
    obtain ⟨h1, h2⟩ := key d n base (by omega)
    split
    · exact ⟨h1, h2, by simpa using h⟩
    · exact ⟨h1, h2, Nat.le_refl _⟩

/-- C118 (NULL pointers are refused). -/
theorem c118_null (cert : Bool) (name : Option (List Char)) (ip : Option (List Nat)) (ipLen : Option Nat)
    (h : cert = false ∨ name = none ∨ ip = none ∨ ipLen = none) :
    encSanIpP cert name ip ipLen = (-EINVAL, none) := by
  unfold encSanIpP
  cases cert <;> cases name <;> cases ip <;> cases ipLen <;> simp_all

/-- C118 (negation, IPv6): no text with one to fourteen colons is accepted.  The text of an IPv6 address has at most seven
(RFC 4291, section 2.2), so no IPv6 address can be entered in its standard form. -/
theorem c118_negation_ipv6 (name : List Char) (h1 : 1 ≤ name.count ':') (h2 : name.count ':' ≤ 14)
    (ip : List Nat) (ipLen : Nat) (hbuf : ipLen ≤ ip.length) : (encSanIp name ip ipLen).ret < 0 := by
  have hm : ':' ∈ name := List.count_pos_iff.mp h1
  have h := c118_accepted name ip ipLen hbuf
  have hk : kind name = (':', 16, 16) := by simp [kind, hm]
  rw [hk] at h
  refine (h.2 ?_).1
  rintro ⟨_, hc, _⟩
  have := parts_count ':' name
  omega

example : 1 ≤ "2001:db8:0:0:8:800:200c:417a".toList.count ':' ∧
    "2001:db8:0:0:8:800:200c:417a".toList.count ':' ≤ 14 := by decide +kernel

/-- C118 (negation, texts that are no addresses): words, too many numbers, missing numbers between the dots, and numbers
that wrap around are accepted. -/
theorem c118_negation :
    encSanIp "host.example.com.org".toList [9, 9, 9, 9] 4 = ⟨0, [0, 0, 0, 0], 4⟩ ∧
    encSanIp "10.0.0.1.77".toList [9, 9, 9, 9] 4 = ⟨0, [10, 0, 0, 1], 4⟩ ∧
    encSanIp "10...1.2.3".toList [9, 9, 9, 9] 4 = ⟨0, [10, 1, 2, 3], 4⟩ ∧
    encSanIp "10.0.0.-18446744073709551615".toList [9, 9, 9, 9] 4 = ⟨0, [10, 0, 0, 1], 4⟩ := by
  decide +kernel

/-- C118: sixteen hexadecimal numbers with colons between them are turned into these bytes (the form the code expects). -/
theorem c118_hex (vs : List Nat) (hl : vs.length = 16) (hv : ∀ v ∈ vs, v < 256)
    (ip : List Nat) (ipLen : Nat) (hbuf : ipLen ≤ ip.length) (hlen : 16 ≤ ipLen) :
    encSanIp (joinWith ':' (vs.map (Nat.toDigits 16))) ip ipLen = ⟨0, vs ++ ip.drop 16, 16⟩ := by
  have := enc_join ':' 16 16 (Nat.toDigits 16) (by omega) (.inl rfl)
    (fun v hv => by
      obtain ⟨h1, h2, h3⟩ := hex_text ⟨v, hv⟩
      exact ⟨h1, h2, h2, h3⟩)
    vs hl hv ip ipLen hbuf hlen
  rw [this, stored, hl]

example : encSanIp "20:1:d:b8:0:0:0:0:0:0:0:0:0:0:ff:7".toList (List.replicate 16 9) 16 =
    ⟨0, [32, 1, 13, 184, 0, 0, 0, 0, 0, 0, 0, 0, 0, 0, 255, 7], 16⟩ := by decide +kernel

/-! ### C119 -/

theorem dec_fmt : ∀ v : Fin 256, (fmt 10 3 v).length = 3 ∧ '.' ∉ fmt 10 3 v ∧ ':' ∉ fmt 10 3 v ∧
    Char.ofNat 0 ∉ fmt 10 3 v ∧ strtoul 10 (fmt 10 3 v) = v := by decide +kernel

theorem hex_fmt : ∀ v : Fin 256, (fmt 16 2 v).length = 2 ∧ ':' ∉ fmt 16 2 v ∧
    Char.ofNat 0 ∉ fmt 16 2 v ∧ strtoul 16 (fmt 16 2 v) = v := by decide +kernel

theorem cstr_snprintf {buf text : List Char} {size : Nat} (h : text.length < size) (h0 : Char.ofNat 0 ∉ text) :
    cstr (snprintf buf size text) = text := by
  have : ¬ size = 0 := by omega
  simp only [snprintf, if_neg this, cstr]
  rw [List.take_of_length_le (by omega), List.append_assoc, List.takeWhile_append_of_pos]
  · simp
  · intro c hc
    simp only [bne_iff_ne, ne_eq]
    rintro rfl
    exact h0 hc

theorem join_length (d : Char) (w : Nat) : ∀ ts : List (List Char), ts ≠ [] → (∀ t ∈ ts, t.length = w) →
    (joinWith d ts).length + 1 = ts.length * (w + 1) := by
  intro ts
  induction ts with
  | nil => intro h; exact absurd rfl h
  | cons t ts ih =>
    intro _ hw
    cases ts with
    | nil => simp [joinWith, hw t (by simp)]
    | cons u us =>
      have := ih (by simp) (fun x hx => hw x (List.mem_cons_of_mem _ hx))
      have e : joinWith d (t :: u :: us) = t ++ d :: joinWith d (u :: us) := rfl
      rw [e, List.length_append, List.length_cons, this, hw t (by simp), List.length_cons (a := t), Nat.add_mul]
      omega

/-- C119 (IPv4): for every address and every buffer of at least 16 bytes the text written is one from which
`lc_x509_enc_san_ip` restores the address. -/
theorem c119_ipv4 (a b c d : Nat) (ha : a < 256) (hb : b < 256) (hc : c < 256) (hd : d < 256)
    (buf : List Char) (size : Nat) (hs : 16 ≤ size) (out : List Nat) (outLen : Nat) (ho : 4 ≤ outLen)
    (hbuf : outLen ≤ out.length) :
    ∃ buf', decSanIp [a, b, c, d] 4 buf size = some (0, buf') ∧
      encSanIp (cstr buf') out outLen = ⟨0, [a, b, c, d] ++ out.drop 4, 4⟩ := by
  have hv : ∀ v ∈ [a, b, c, d], v < 256 := by simp [ha, hb, hc, hd]
  refine ⟨snprintf buf size (joinWith '.' ([a, b, c, d].map (fmt 10 3))), rfl, ?_⟩
  rw [cstr_snprintf]
  · exact enc_join '.' 4 10 (fmt 10 3) (by omega) (.inr rfl)
      (fun v hv => by
        obtain ⟨h0, h1, h2, h3, h4⟩ := dec_fmt ⟨v, hv⟩
        exact ⟨fun e => (by rw [e] at h0; exact absurd h0 (by decide)), h1, h2, h4⟩)
      [a, b, c, d] rfl hv out outLen hbuf ho
  · have := join_length '.' 3 ([a, b, c, d].map (fmt 10 3)) (by simp) (by
      intro t ht
      obtain ⟨v, hv', rfl⟩ := List.mem_map.mp ht
      exact (dec_fmt ⟨v, hv v hv'⟩).1)
    simp only [List.length_map, List.length_cons, List.length_nil] at this
    omega
  · intro h
    rcases mem_join h with h | ⟨t, ht, h⟩
    · exact absurd h (by decide)
    · obtain ⟨v, hv', rfl⟩ := List.mem_map.mp ht
      exact (dec_fmt ⟨v, hv v hv'⟩).2.2.2.1 h

example : (decSanIp [10, 0, 200, 1] 4 (List.replicate 20 'x') 20).map (fun r => String.ofList (cstr r.2)) =
    some " 10.  0.200.  1" := by decide +kernel

/-- The bytes `lc_x509_dec_san_ip` prints of a list of sixteen. -/
theorem mapM_idx (ip : List Nat) (h : ip.length = 16) :
    [0, 1, 2, 3, 4, 5, 6, 7, 8, 8, 10, 11, 12, 13, 14, 15].mapM (ip[·]?) = some (ip.set 9 (ip.getD 8 0)) := by
  match ip, h with
  | [_, _, _, _, _, _, _, _, _, _, _, _, _, _, _, _], _ => rfl

/-- C119 (IPv6, what the code does): for every address and every buffer of at least 48 bytes the text is the one of the
address in which the byte 9 is replaced by the byte 8; this is what `lc_x509_enc_san_ip` reads back. -/
theorem c119_ipv6_partial (ip : List Nat) (hl : ip.length = 16) (hv : ∀ v ∈ ip, v < 256)
    (buf : List Char) (size : Nat) (hs : 48 ≤ size) (out : List Nat) (outLen : Nat) (ho : 16 ≤ outLen)
    (hbuf : outLen ≤ out.length) :
    ∃ buf', decSanIp ip 16 buf size = some (0, buf') ∧
      encSanIp (cstr buf') out outLen = ⟨0, ip.set 9 (ip.getD 8 0) ++ out.drop 16, 16⟩ := by
  have hv' : ∀ v ∈ ip.set 9 (ip.getD 8 0), v < 256 := by
    intro v h
    rcases List.mem_or_eq_of_mem_set h with h | rfl
    · exact hv v h
    · have : ip.getD 8 0 = ip[8] := by simp [List.getD, List.getElem?_eq_getElem (show 8 < ip.length by omega)]
      rw [this]
      exact hv _ (List.getElem_mem _)
  have hl' : (ip.set 9 (ip.getD 8 0)).length = 16 := by simpa using hl
  refine ⟨snprintf buf size (joinWith ':' ((ip.set 9 (ip.getD 8 0)).map (fmt 16 2))), ?_, ?_⟩
  · rw [decSanIp, if_pos rfl, mapM_idx ip hl]
  · generalize ip.set 9 (ip.getD 8 0) = vs at hv' hl'
    rw [cstr_snprintf]
    · have := enc_join ':' 16 16 (fmt 16 2) (by omega) (.inl rfl)
        (fun v hv => by
          obtain ⟨h0, h1, h2, h3⟩ := hex_fmt ⟨v, hv⟩
          exact ⟨fun e => (by rw [e] at h0; exact absurd h0 (by decide)), h1, h1, h3⟩)
        vs hl' hv' out outLen hbuf ho
      rw [this, stored, hl']
    · have := join_length ':' 2 (vs.map (fmt 16 2)) (by
          intro e
          have := congrArg List.length e
          simp [hl'] at this) (by
        intro t ht
        obtain ⟨v, h, rfl⟩ := List.mem_map.mp ht
        exact (hex_fmt ⟨v, hv' v h⟩).1)
      rw [List.length_map, hl'] at this
      omega
    · intro h
      rcases mem_join h with h | ⟨t, ht, h⟩
      · exact absurd h (by decide)
      · obtain ⟨v, hv'', rfl⟩ := List.mem_map.mp ht
        exact (hex_fmt ⟨v, hv' v hv''⟩).2.2.1 h

/-- C119 (negation): two IPv6 addresses that differ in the byte 9 have the same text, whatever the buffer is.  (`2001:db8::1`
and `2001:db8:0:0:5::1` as an instance below.) -/
theorem c119_negation (ip : List Nat) (hl : ip.length = 16) (v : Nat) (buf : List Char) (size : Nat) :
    decSanIp (ip.set 9 v) 16 buf size = decSanIp ip 16 buf size := by
  rw [decSanIp, decSanIp, if_pos rfl, if_pos rfl, mapM_idx ip hl, mapM_idx _ (by simpa using hl)]
  simp [List.set_set]

example : [32, 1, 13, 184, 0, 0, 0, 0, 0, 5, 0, 0, 0, 0, 0, 1] ≠ [32, 1, 13, 184, 0, 0, 0, 0, 0, 0, 0, 0, 0, 0, 0, 1] ∧
    decSanIp [32, 1, 13, 184, 0, 0, 0, 0, 0, 5, 0, 0, 0, 0, 0, 1] 16 (List.replicate 60 'x') 60 =
    decSanIp [32, 1, 13, 184, 0, 0, 0, 0, 0, 0, 0, 0, 0, 0, 0, 1] 16 (List.replicate 60 'x') 60 := by decide +kernel

/-- C119 (negation, lengths): an address that is shorter than four bytes — the parser stores the subject alternative name
with any length — is read beyond its end. -/
theorem c119_negation_read (ip : List Nat) (h : ip.length < 4) (buf : List Char) (size : Nat) :
    decSanIp ip ip.length buf size = none := by
  rw [decSanIp, if_neg (by omega)]
  match ip, h with
  | [], _ => rfl
  | [_], _ => rfl
  | [_, _], _ => rfl
  | [_, _, _], _ => rfl

/-- C119 (negation, small buffers): a text that is cut off is reported as success. -/
theorem c119_negation_cut :
    (decSanIp [192, 168, 100, 23] 4 (List.replicate 16 'x') 15).map (fun r => (r.1, String.ofList (cstr r.2))) =
      some (0, "192.168.100. 2") := by decide +kernel

/-- C119 (memory): the buffer keeps its length and is not changed behind its first `ip_name_len` bytes, and within
these the text is terminated. -/
theorem c119_memory (ip : List Nat) (ipLen : Nat) (buf buf' : List Char) (size : Nat) (hs : size ≤ buf.length) (r : Int)
    (h : decSanIp ip ipLen buf size = some (r, buf')) :
    buf'.length = buf.length ∧ buf'.drop size = buf.drop size ∧
      (0 < size → Char.ofNat 0 ∈ buf'.take size) := by
  have key : ∀ text, (snprintf buf size text).length = buf.length ∧
      (snprintf buf size text).drop size = buf.drop size ∧
      (0 < size → Char.ofNat 0 ∈ (snprintf buf size text).take size) := by
    intro text
    unfold snprintf
    split
    · rename_i h; subst h; simp
    · have hl : (text.take (size - 1) ++ [Char.ofNat 0]).length ≤ size := by simp; omega
      dsimp only
      generalize hg : text.take (size - 1) ++ [Char.ofNat 0] = t at hl ⊢
      refine ⟨by simp; omega, ?_, ?_⟩
      · rw [List.drop_append, List.drop_of_length_le hl, List.nil_append, List.drop_drop]
        congr 1
        omega
      · intro _
        rw [List.take_append]
        apply List.mem_append_left
        rw [List.take_of_length_le hl, ← hg]
        simp
  unfold decSanIp at h
  split at h
  all_goals
    split at h
    · cases h
    · injection h with h
      injection h with h1 h2
      subst h2
      exact key _

end LC.Acc
