import Verif.Bike.Dec

/-! The decoder refines the bit-flipping specification; key generation and encapsulation in terms
of ring elements. -/

namespace LC.Bike

open AddMonoidAlgebra

/-! ## Sums -/

theorem xorL_pad {p : Par} {a b : List Nat} (ha : Pad p a) (hb : Pad p b) :
    Pad p (xorL a b) ∧ ∀ i, bitW (xorL a b) i = (bitW a i ^^ bitW b i) := by
  have hbit : ∀ i, bitW (xorL a b) i = (bitW a i ^^ bitW b i) := by
    intro i
    by_cases hi : i < 64 * p.pq
    · unfold bitW xorL
      rw [getD_zipWith _ (by rw [ha.len]; omega) (by rw [hb.len]; omega), Nat.testBit_xor]
    · rw [bitW_ge _ (by simp [xorL, ha.len, hb.len]; omega), bitW_ge _ (by rw [ha.len]; omega),
        bitW_ge _ (by rw [hb.len]; omega)]
      rfl
  refine ⟨⟨by simp [xorL, ha.len, hb.len], ?_, ?_⟩, hbit⟩
  · intro w hw
    obtain ⟨i, hi, rfl⟩ := List.getElem_of_mem hw
    simp only [xorL, List.getElem_zipWith]
    exact Nat.xor_lt_two_pow (n := 64) (ha.wf _ (List.getElem_mem _)) (hb.wf _ (List.getElem_mem _))
  · intro i hi
    rw [hbit, ha.hi i hi, hb.hi i hi]
    rfl

theorem xorL_el {p : Par} [NeZero p.R] {a b : List Nat} (ha : Pad p a) (hb : Pad p b) :
    el p.R (xorL a b) = el p.R a + el p.R b := by
  rw [el_eq_elF, el_eq_elF, el_eq_elF, ← elF_xor]
  exact elF_congr (fun i _ => (xorL_pad ha hb).2 i)

theorem elF_false {R : Nat} [NeZero R] : elF R (fun _ => false) = 0 := by
  ext g
  rw [elF_coeff]
  rfl

theorem el_words {p : Par} [NeZero p.R] (hp : POk p) {bs : List Nat} (h : Rt p bs) :
    el p.R (wordsOf p.pq bs) = elF p.R (bitB bs) := by
  rw [el_eq_elF]
  exact elF_congr (fun i _ => (rt_pad hp h).2 i)

theorem el_bytes {p : Par} [NeZero p.R] (hp : POk p) {a : List Nat} (h : Pad p a) :
    elF p.R (bitB (bytesOf p.rb a)) = el p.R a := by
  rw [el_eq_elF]
  exact elF_congr (fun i _ => (pad_rt hp h).2 i)

/-! ## Syndromes -/

theorem syn_congr {p : Par} (hp : POk p) {f g : Nat → Bool} {s : List Nat} (hs : Syn p f s)
    (h : ∀ i, i < p.R → f i = g i) : Syn p g s :=
  ⟨hs.wf, fun b hb => (by
    have := hp.ge
    rw [hs.bits b hb, h _ (Nat.mod_lt _ (by omega))])⟩

theorem take_bit (a : List Nat) (n i : Nat) (h : i < 64 * n) : bitW (a.take n) i = bitW a i := by
  unfold bitW
  rw [List.getD_eq_getElem?_getD, List.getElem?_take, if_pos (by omega),
    ← List.getD_eq_getElem?_getD]

theorem take_wf {a : List Nat} (h : Wf a) (n : Nat) : Wf (a.take n) :=
  fun w hw => h w (List.mem_of_mem_take hw)

theorem syndrome_syn {p : Par} (hp : POk p) {a h0 : List Nat} (ha : Pad p a) (hh : Pad p h0) :
    Syn p (bitW (modMul p a h0)) (syndrome p a h0) := by
  have hm := modMul_pad hp ha hh
  have hfit := hp.fit
  have h := dup_syn hp ((modMul p a h0).take p.rq) (take_wf hm.wf _)
    (by rw [List.length_take, hm.len]; omega)
  exact syn_congr hp h (fun i hi => take_bit _ _ _ (by unfold Par.rq; omega))

theorem dup_take {p : Par} (hp : POk p) {a h0 : List Nat} {f : Nat → Bool}
    (hm : Wf (modMul p a h0)) (hml : p.rq ≤ ((modMul p a h0).take p.rq).length)
    (hs : Syn p f (syndrome p a h0)) : Syn p f (dup p ((syndrome p a h0).take p.rq)) := by
  have hge := hp.ge
  have hl : p.rq ≤ (syndrome p a h0).length := by
    have h3 := (dup_spec hp ((modMul p a h0).take p.rq) (take_wf hm _) hml).2.1
    unfold syndrome
    omega
  have h := dup_syn hp ((syndrome p a h0).take p.rq) (take_wf hs.wf _)
    (by rw [List.length_take]; omega)
  refine syn_congr hp h (fun i hi => ?_)
  rw [take_bit _ _ _ (by unfold Par.rq; omega), hs.bits i (by omega), Nat.mod_eq_of_lt hi]

/-- What the decoder relies on in the secret key: the index lists have `D` entries below `R`, `h0`
holds the first list, and `h0 · pk = h1`. -/
structure SkOk (p : Par) (sk : Sk) : Prop where
  l0 : sk.wl0.length = p.D
  r0 : ∀ w ∈ sk.wl0, w < p.R
  l1 : sk.wl1.length = p.D
  r1 : ∀ w ∈ sk.wl1, w < p.R
  h0 : Rt p sk.h0
  b0 : ∀ i, i < p.R → bitB sk.h0 i = Spec.ind sk.wl0 i
  pk : Rt p sk.pk
  eqn : ∀ i, i < p.R → Spec.cyc p.R (Spec.ind sk.wl0) (bitB sk.pk) i = Spec.ind sk.wl1 i

theorem elF_synd {R : Nat} [NeZero R] (wl0 wl1 : List Nat) (c0 : Nat → Bool)
    (e : (Nat → Bool) × (Nat → Bool)) :
    elF R (Spec.synd R wl0 wl1 c0 e) = elF R (Spec.ind wl0) * (elF R c0 + elF R e.1) +
      elF R (Spec.ind wl1) * elF R e.2 := by
  unfold Spec.synd
  rw [elF_xor, elF_xor, elF_cyc, elF_cyc, elF_cyc, mul_add]

theorem synd_syn {p : Par} [NeZero p.R] (hp : POk p) {sk : Sk} (hk : SkOk p sk) {c0 : List Nat}
    (hc : Rt p c0) {e : List Nat × List Nat} (h1 : Rt p e.1) (h2 : Rt p e.2)
    {f : (Nat → Bool) × (Nat → Bool)} (f1 : ∀ i, i < p.R → bitB e.1 i = f.1 i)
    (f2 : ∀ i, i < p.R → bitB e.2 i = f.2 i) :
    Syn p (Spec.synd p.R sk.wl0 sk.wl1 (bitB c0) f)
      (resyndrome p (wordsOf p.pq c0) (wordsOf p.pq sk.h0) (wordsOf p.pq sk.pk) e) := by
  have p1 := (rt_pad hp h1).1
  have p2 := (rt_pad hp h2).1
  have pc := (rt_pad hp hc).1
  have pk := (rt_pad hp hk.pk).1
  have ph := (rt_pad hp hk.h0).1
  have pm := modMul_pad hp p2 pk
  have px := (xorL_pad (xorL_pad pm pc).1 p1).1
  refine syn_congr hp (syndrome_syn hp px ph) ?_
  refine elF_inj (R := p.R) ?_
  rw [← el_eq_elF, modMul_el hp px ph, xorL_el (xorL_pad pm pc).1 p1, xorL_el pm pc,
    modMul_el hp p2 pk, el_words hp h1, el_words hp h2, el_words hp hc, el_words hp hk.pk,
    el_words hp hk.h0, elF_synd, elF_congr hk.b0, elF_congr f1, elF_congr f2,
    ← elF_congr hk.eqn, elF_cyc]
  ring

/-! ## One iteration -/

/-- The state of the decoder: the error vector holds the bits of the specification, the syndrome
buffer its syndrome. -/
structure Sim (p : Par) (sk : Sk) (c0 : List Nat) (f : (Nat → Bool) × (Nat → Bool))
    (st : (List Nat × List Nat) × List Nat) : Prop where
  t1 : Rt p st.1.1
  t2 : Rt p st.1.2
  b1 : ∀ i, i < p.R → bitB st.1.1 i = f.1 i
  b2 : ∀ i, i < p.R → bitB st.1.2 i = f.2 i
  syn : Syn p (Spec.synd p.R sk.wl0 sk.wl1 (bitB c0) f) st.2

/-- Requirements on the constants of the decoder. -/
structure COk (p : Par) : Prop where
  dist : p.D < 512
  sl : 3 ≤ p.slices
  maj : (p.D + 1) / 2 + 1 ≤ 2 ^ (p.slices - 1)
  thr : ThrOk p

theorem rWeight_syn {p : Par} (hp : POk p) {f : Nat → Bool} {s : List Nat} (hs : Syn p f s) :
    rWeight p s = Spec.wt p.R f := by
  rw [rWeight_eq hp hs.wf]
  unfold weight Spec.wt
  congr 1
  apply List.filter_congr
  intro i hi
  have hi := List.mem_range.1 hi
  rw [hs.bits i (by omega), Nat.mod_eq_of_lt hi]

theorem decIter_sim {p : Par} [NeZero p.R] {h : Nat} (hp : POk p) (hd : DOk p h) (hc : COk p)
    {sk : Sk} (hk : SkOk p sk) {c0 : List Nat} (h0 : Rt p c0)
    {f : (Nat → Bool) × (Nat → Bool)} {st : (List Nat × List Nat) × List Nat}
    (hs : Sim p sk c0 f st)
    (ht : Spec.thr p (Spec.wt p.R (Spec.synd p.R sk.wl0 sk.wl1 (bitB c0) f)) ≤
      2 ^ (p.slices - 1)) :
    Sim p sk c0 (Spec.iter p sk.wl0 sk.wl1 (bitB c0) f) (decIter p sk (wordsOf p.pq c0) st) := by
  have hS := hc.sl
  unfold decIter
  dsimp only
  rw [rWeight_syn hp hs.syn, hc.thr _ (wt_le _ _)]
  unfold Spec.iter
  dsimp only
  generalize Spec.thr p _ = t at *
  obtain ⟨a1, a2, a3⟩ := findErr1_spec hp hd hc.dist hS hs.syn (byt_of_rt hs.t1 hs.b1) hk.l0 hk.r0 t ht
  obtain ⟨c1, c2, c3⟩ := findErr1_spec hp hd hc.dist hS hs.syn (byt_of_rt hs.t2 hs.b2) hk.l1 hk.r1 t ht
  generalize findErr1 p st.1.1 st.2 sk.wl0 t = r0 at *
  generalize findErr1 p st.1.2 st.2 sk.wl1 t = r1 at *
  have s1 := synd_syn hp hk h0 (e := (r0.1, r1.1)) a1 c1
    (f := (Spec.flip p.R (Spec.synd p.R sk.wl0 sk.wl1 (bitB c0) f) sk.wl0 t f.1,
      Spec.flip p.R (Spec.synd p.R sk.wl0 sk.wl1 (bitB c0) f) sk.wl1 t f.2)) a2 c2
  obtain ⟨x1, x2⟩ := findErr2_spec hp hd hc.dist s1 (byt_of_rt a1 a2) a3 hk.l0 hk.r0 _ hc.maj
  obtain ⟨y1, y2⟩ := findErr2_spec hp hd hc.dist s1 (byt_of_rt c1 c2) c3 hk.l1 hk.r1 _ hc.maj
  exact ⟨x1, y1, x2, y2, synd_syn hp hk h0 (e := (_, _)) x1 y1 (f := (_, _)) x2 y2⟩

theorem zero_rt (p : Par) : Rt p (List.replicate p.rb 0) := by
  have hb : ∀ i, bitB (List.replicate p.rb 0) i = false := by
    intro i; unfold bitB; rw [getD_replicate]; simp
  exact ⟨by simp, fun b hb => (by rw [List.eq_of_mem_replicate hb]; decide), fun i _ => hb i⟩

theorem zero_bit (p : Par) (i : Nat) : bitB (List.replicate p.rb 0) i = false := by
  unfold bitB; rw [getD_replicate]; simp

/-- The decoder computes five iterations of the specification, as long as the thresholds fit the
counters. -/
theorem decode_sim {p : Par} [NeZero p.R] {h : Nat} (hp : POk p) (hd : DOk p h) (hc : COk p)
    {sk : Sk} (hk : SkOk p sk) {ct : Ct} (h0 : Rt p ct.c0)
    (ht : ∀ n, n < 5 → Spec.thr p (Spec.wt p.R (Spec.synd p.R sk.wl0 sk.wl1 (bitB ct.c0)
      (Spec.run p sk.wl0 sk.wl1 (bitB ct.c0) n))) ≤ 2 ^ (p.slices - 1)) :
    (Rt p (decode p sk ct).1 ∧ Rt p (decode p sk ct).2) ∧ ∀ i, i < p.R →
      bitB (decode p sk ct).1 i = (Spec.run p sk.wl0 sk.wl1 (bitB ct.c0) 5).1 i ∧
      bitB (decode p sk ct).2 i = (Spec.run p sk.wl0 sk.wl1 (bitB ct.c0) 5).2 i := by
  have key : ∀ n, n ≤ 5 → Sim p sk ct.c0 (Spec.run p sk.wl0 sk.wl1 (bitB ct.c0) n)
      ((List.range n).foldl (fun st _ => decIter p sk (wordsOf p.pq ct.c0) st)
        ((List.replicate p.rb 0, List.replicate p.rb 0),
          dup p ((syndrome p (wordsOf p.pq ct.c0) (wordsOf p.pq sk.h0)).take p.rq))) := by
    intro n hn
    induction n with
    | zero =>
      refine ⟨zero_rt p, zero_rt p, fun i _ => zero_bit p i, fun i _ => zero_bit p i, ?_⟩
      have pc := (rt_pad hp h0).1
      have ph := (rt_pad hp hk.h0).1
      have pm := modMul_pad hp pc ph
      have hfit := hp.fit
      refine dup_take hp pm.wf (by rw [List.length_take, pm.len]; omega) (syn_congr hp (syndrome_syn hp pc ph) ?_)
      refine elF_inj (R := p.R) ?_
      rw [← el_eq_elF, modMul_el hp pc ph, el_words hp h0, el_words hp hk.h0, elF_synd,
        elF_congr hk.b0]
      simp only [Spec.run, elF_false]
      ring
    | succ n ih =>
      rw [List.range_succ, List.foldl_append]
      exact decIter_sim hp hd hc hk h0 (ih (by omega)) (ht n (by omega))
  have h5 := key 5 le_rfl
  exact ⟨⟨h5.t1, h5.t2⟩, fun i hi => ⟨h5.b1 i hi, h5.b2 i hi⟩⟩

end LC.Bike
