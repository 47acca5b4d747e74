import Verif.Proof.PolyArr
/-!
# `karatsuba_simple` multiplies polynomials over `Z/2^16`
-/
namespace Saber
open Polynomial

/-- Linear arithmetic with the value of `KARATSUBA_N`. -/
local macro "kn" : tactic => `(tactic| (first | omega | (simp only [KN] at *; omega)))

/-- The five arrays of `karatsuba_simple` hold the given polynomials. -/
structure KInv (s : KS) (rf d01 d0123 d23 rd01 : R16[X]) : Prop where
  rf : Arr s.rf 127 rf
  d01 : Arr s.d01 31 d01
  d0123 : Arr s.d0123 31 d0123
  d23 : Arr s.d23 31 d23
  rd01 : Arr s.rd01 63 rd01

theorem KInv.congr {s : KS} {a b c d e a' b' c' d' e' : R16[X]} (h : KInv s a b c d e)
    (ha : a = a') (hb : b = b') (hc : c = c') (hd : d = d') (he : e = e') : KInv s a' b' c' d' e' := by
  subst ha hb hc hd he; exact h

theorem karaInner_ok {b : List R16} (hb : b.length = 64) {i j : Nat} (hi : i < 16) (hj : j < 16)
    (a1 a2 a3 a4 : R16) {s : KS} {rf d01 d0123 d23 rd01 : R16[X]} (h : KInv s rf d01 d0123 d23 rd01) :
    Ok (karaInner b i a1 a2 a3 a4 j s) fun s' => KInv s'
      (rf + C (a1 * b.getD j 0) * X ^ (i + j) + C (a2 * b.getD (j + 16) 0) * X ^ (i + j + 32)
        + C (b.getD (j + 32) 0 * a3) * X ^ (i + j + 64) + C (b.getD (j + 48) 0 * a4) * X ^ (i + j + 96))
      (d01 + C ((b.getD j 0 + b.getD (j + 16) 0) * (a1 + a2)) * X ^ (i + j))
      (d0123 + C ((b.getD j 0 + b.getD (j + 32) 0 + (b.getD (j + 16) 0 + b.getD (j + 48) 0)) *
        (a1 + a3 + (a2 + a4))) * X ^ (i + j))
      (d23 + C ((a3 + a4) * (b.getD (j + 32) 0 + b.getD (j + 48) 0)) * X ^ (i + j))
      (rd01 + C ((b.getD j 0 + b.getD (j + 32) 0) * (a1 + a3)) * X ^ (i + j)
        + C ((b.getD (j + 16) 0 + b.getD (j + 48) 0) * (a2 + a4)) * X ^ (i + j + 32)) := by
  unfold karaInner
  rw [rd_ok 0 (by omega), ok_bind, rd_ok 0 (by kn), ok_bind]
  refine (h.rf.addTo (by kn) _).bind fun rf1 h1 => ?_
  refine (h1.addTo (by kn) _).bind fun rf2 h2 => ?_
  refine (h.d01.addTo (by omega) _).bind fun d1 h3 => ?_
  rw [rd_ok 0 (by kn), ok_bind, rd_ok 0 (by kn), ok_bind]
  refine (h2.addTo (by kn) _).bind fun rf3 h4 => ?_
  refine (h4.addTo (by kn) _).bind fun rf4 h5 => ?_
  refine (h.d23.addTo (by omega) _).bind fun d2 h6 => ?_
  refine (h.rd01.addTo (by kn) _).bind fun r1 h7 => ?_
  refine (h7.addTo (by kn) _).bind fun r2 h8 => ?_
  refine (h.d0123.addTo (by omega) _).bind fun d3 h9 => ?_
  exact Ok.pure ⟨h5, h3, h9, h6, h8⟩

theorem karaMul_ok {a b : List R16} (ha : a.length = 64) (hb : b.length = 64) {s : KS} (h : KInv s 0 0 0 0 0) :
    Ok (karaMul a b s) fun s' => KInv s'
      (S a 0 16 * S b 0 16 + X ^ 32 * (S a 16 16 * S b 16 16) + X ^ 64 * (S a 32 16 * S b 32 16)
        + X ^ 96 * (S a 48 16 * S b 48 16))
      ((S a 0 16 + S a 16 16) * (S b 0 16 + S b 16 16))
      ((S a 0 16 + S a 16 16 + S a 32 16 + S a 48 16) * (S b 0 16 + S b 16 16 + S b 32 16 + S b 48 16))
      ((S a 32 16 + S a 48 16) * (S b 32 16 + S b 48 16))
      ((S a 0 16 + S a 32 16) * (S b 0 16 + S b 32 16)
        + X ^ 32 * ((S a 16 16 + S a 48 16) * (S b 16 16 + S b 48 16))) := by
  unfold karaMul
  refine loop_inv (fun i s' => KInv s'
      (S a 0 i * S b 0 16 + X ^ 32 * (S a 16 i * S b 16 16) + X ^ 64 * (S a 32 i * S b 32 16)
        + X ^ 96 * (S a 48 i * S b 48 16))
      ((S a 0 i + S a 16 i) * (S b 0 16 + S b 16 16))
      ((S a 0 i + S a 16 i + S a 32 i + S a 48 i) * (S b 0 16 + S b 16 16 + S b 32 16 + S b 48 16))
      ((S a 32 i + S a 48 i) * (S b 32 16 + S b 48 16))
      ((S a 0 i + S a 32 i) * (S b 0 16 + S b 32 16)
        + X ^ 32 * ((S a 16 i + S a 48 i) * (S b 16 16 + S b 48 16)))) ?_ ?_
  · refine h.congr ?_ ?_ ?_ ?_ ?_ <;> simp [S_zero]
  · intro i s hi hs
    have hi' : i < 16 := hi
    rw [rd_ok 0 (by omega), ok_bind, rd_ok 0 (by kn), ok_bind, rd_ok 0 (by kn), ok_bind,
      rd_ok 0 (by kn), ok_bind]
    have e2 : i + KN / 4 = 16 + i := by kn
    have e3 : i + 2 * KN / 4 = 32 + i := by kn
    have e4 : i + 3 * KN / 4 = 48 + i := by kn
    rw [e2, e3, e4]
    generalize ha1 : a.getD i 0 = a1
    generalize ha2 : a.getD (16 + i) 0 = a2
    generalize ha3 : a.getD (32 + i) 0 = a3
    generalize ha4 : a.getD (48 + i) 0 = a4
    have f1 : S a 0 (i + 1) = S a 0 i + C a1 * X ^ i := by rw [S_succ, Nat.zero_add, ha1]
    have f2 : S a 16 (i + 1) = S a 16 i + C a2 * X ^ i := by rw [S_succ, ha2]
    have f3 : S a 32 (i + 1) = S a 32 i + C a3 * X ^ i := by rw [S_succ, ha3]
    have f4 : S a 48 (i + 1) = S a 48 i + C a4 * X ^ i := by rw [S_succ, ha4]
    rw [f1, f2, f3, f4]
    generalize S a 0 i = A0 at *
    generalize S a 16 i = A1 at *
    generalize S a 32 i = A2 at *
    generalize S a 48 i = A3 at *
    have main := loop_inv (n := 16) (s := s) (body := karaInner b i a1 a2 a3 a4) (fun j s' => KInv s'
      (A0 * S b 0 16 + X ^ 32 * (A1 * S b 16 16) + X ^ 64 * (A2 * S b 32 16) + X ^ 96 * (A3 * S b 48 16)
        + C a1 * X ^ i * S b 0 j + X ^ 32 * (C a2 * X ^ i * S b 16 j) + X ^ 64 * (C a3 * X ^ i * S b 32 j)
        + X ^ 96 * (C a4 * X ^ i * S b 48 j))
      ((A0 + A1) * (S b 0 16 + S b 16 16) + C (a1 + a2) * X ^ i * (S b 0 j + S b 16 j))
      ((A0 + A1 + A2 + A3) * (S b 0 16 + S b 16 16 + S b 32 16 + S b 48 16)
        + C (a1 + a2 + a3 + a4) * X ^ i * (S b 0 j + S b 16 j + S b 32 j + S b 48 j))
      ((A2 + A3) * (S b 32 16 + S b 48 16) + C (a3 + a4) * X ^ i * (S b 32 j + S b 48 j))
      ((A0 + A2) * (S b 0 16 + S b 32 16) + X ^ 32 * ((A1 + A3) * (S b 16 16 + S b 48 16))
        + C (a1 + a3) * X ^ i * (S b 0 j + S b 32 j)
        + X ^ 32 * (C (a2 + a4) * X ^ i * (S b 16 j + S b 48 j)))) ?_ ?_
    · refine main.mono fun s' h' => h'.congr ?_ ?_ ?_ ?_ ?_ <;> (try simp only [C_add]) <;> ring
    · refine hs.congr ?_ ?_ ?_ ?_ ?_ <;> simp [S_zero]
    · intro j s' hj hs'
      refine (karaInner_ok hb hi' hj a1 a2 a3 a4 hs').mono fun s'' h'' => h''.congr ?_ ?_ ?_ ?_ ?_ <;>
        simp only [S_succ _ _ j, C_add, C_mul, Nat.zero_add, Nat.add_comm j 16, Nat.add_comm j 32, Nat.add_comm j 48] <;>
        ring

theorem loop_stage1 {s : KS} {F D01 D0123 D23 G : R16[X]} (h : KInv s F D01 D0123 D23 G)
    {D01' D0123' D23' : R16[X]}
    (e1 : ∀ k, k < 31 → D01.coeff k - F.coeff k - F.coeff (k + 32) = D01'.coeff k)
    (e2 : ∀ k, k < 31 → D0123.coeff k - G.coeff k - G.coeff (k + 32) = D0123'.coeff k)
    (e3 : ∀ k, k < 31 → D23.coeff k - F.coeff (k + 64) - F.coeff (k + 96) = D23'.coeff k) :
    Ok (loop (KN / 2 - 1) s karaStage1) fun s' => KInv s' F D01' D0123' D23' G := by
  have H := loop_inv (n := 31) (s := s) (body := karaStage1) (fun i s' =>
    Arr s'.rf 127 F ∧ Arr s'.rd01 63 G ∧
    (s'.d01.length = 31 ∧ ∀ k, k < 31 → s'.d01.getD k 0 = if k < i then D01'.coeff k else D01.coeff k) ∧
    (s'.d0123.length = 31 ∧ ∀ k, k < 31 → s'.d0123.getD k 0 = if k < i then D0123'.coeff k else D0123.coeff k) ∧
    (s'.d23.length = 31 ∧ ∀ k, k < 31 → s'.d23.getD k 0 = if k < i then D23'.coeff k else D23.coeff k))
    ⟨h.rf, h.rd01, by simpa [Arr] using h.d01, by simpa [Arr] using h.d0123, by simpa [Arr] using h.d23⟩ ?_
  · refine H.mono fun s' h' => ?_
    obtain ⟨h1, h2, ⟨h3, h3'⟩, ⟨h4, h4'⟩, h5, h5'⟩ := h'
    exact ⟨h1, ⟨h3, fun k hk => by rw [h3' k hk, if_pos hk]⟩, ⟨h4, fun k hk => by rw [h4' k hk, if_pos hk]⟩,
      ⟨h5, fun k hk => by rw [h5' k hk, if_pos hk]⟩, h2⟩
  · intro i s' hi h'
    obtain ⟨h1, h2, ⟨h3, h3'⟩, ⟨h4, h4'⟩, h5, h5'⟩ := h'
    unfold karaStage1
    rw [rd_ok 0 (by omega), ok_bind, h2.rd (by kn), ok_bind, h2.rd (by kn), ok_bind, wr_ok (by omega),
      ok_bind, rd_ok 0 (by omega), ok_bind, h1.rd (by kn), ok_bind, h1.rd (by kn), ok_bind,
      wr_ok (by omega), ok_bind, rd_ok 0 (by omega), ok_bind, h1.rd (by kn), ok_bind,
      h1.rd (by kn), ok_bind, wr_ok (by omega), ok_bind]
    refine Ok.pure ⟨h1, h2, ⟨by simpa using h3, ?_⟩, ⟨by simpa using h4, ?_⟩, by simpa using h5, ?_⟩
    · intro k hk
      rw [getD_set, h3, h3' k hk, h3' i hi, if_neg (Nat.lt_irrefl i)]
      have := e1 i hi
      by_cases hik : i = k
      · subst hik
        simpa [KN, hi] using this
      · have : (k < i + 1) = (k < i) := by apply propext; omega
        simp [hik, this]
    · intro k hk
      rw [getD_set, h4, h4' k hk, h4' i hi, if_neg (Nat.lt_irrefl i)]
      have := e2 i hi
      by_cases hik : i = k
      · subst hik
        simpa [KN, hi] using this
      · have : (k < i + 1) = (k < i) := by apply propext; omega
        simp [hik, this]
    · intro k hk
      rw [getD_set, h5, h5' k hk, h5' i hi, if_neg (Nat.lt_irrefl i)]
      have := e3 i hi
      by_cases hik : i = k
      · subst hik
        simpa [KN, hi] using this
      · have : (k < i + 1) = (k < i) := by apply propext; omega
        simp [hik, this]

theorem loop_stage2 {s : KS} {F D01 D0123 D23 G : R16[X]} (h : KInv s F D01 D0123 D23 G)
    (h1 : Deg D01 31) (h2 : Deg D0123 31) (h3 : Deg D23 31) :
    Ok (loop (KN / 2 - 1) s karaStage2) fun s' =>
      KInv s' (F + X ^ 16 * D01 + X ^ 80 * D23) D01 D0123 D23 (G + X ^ 16 * D0123) := by
  have H := loop_inv (n := 31) (s := s) (body := karaStage2) (fun i s' =>
    KInv s' (F + X ^ 16 * trunc D01 i + X ^ 80 * trunc D23 i) D01 D0123 D23 (G + X ^ 16 * trunc D0123 i)) ?_ ?_
  · refine H.mono fun s' h' => ?_
    rwa [trunc_eq h1, trunc_eq h2, trunc_eq h3] at h'
  · refine h.congr ?_ rfl rfl rfl ?_ <;> simp [trunc_zero]
  · intro i s' hi h'
    unfold karaStage2
    rw [h'.d0123.rd hi, ok_bind]
    refine (h'.rd01.addTo (by kn) _).bind fun r1 g1 => ?_
    rw [h'.d01.rd hi, ok_bind]
    refine (h'.rf.addTo (by kn) _).bind fun r2 g2 => ?_
    rw [h'.d23.rd hi, ok_bind]
    refine (g2.addTo (by kn) _).bind fun r3 g3 => ?_
    refine Ok.pure ⟨g3.congr ?_, h'.d01, h'.d0123, h'.d23, g1.congr ?_⟩ <;>
      simp only [trunc_succ, KN, Nat.reduceMul, Nat.reduceDiv] <;> ring

theorem loop_stage3 {s : KS} {F D01 D0123 D23 G G' : R16[X]} (h : KInv s F D01 D0123 D23 G)
    (e : ∀ k, k < 63 → G.coeff k - F.coeff k - F.coeff (k + 64) = G'.coeff k) :
    Ok (loop (KN - 1) s karaStage3) fun s' => KInv s' F D01 D0123 D23 G' := by
  have H := loop_inv (n := 63) (s := s) (body := karaStage3) (fun i s' =>
    Arr s'.rf 127 F ∧ Arr s'.d01 31 D01 ∧ Arr s'.d0123 31 D0123 ∧ Arr s'.d23 31 D23 ∧
    (s'.rd01.length = 63 ∧ ∀ k, k < 63 → s'.rd01.getD k 0 = if k < i then G'.coeff k else G.coeff k))
    ⟨h.rf, h.d01, h.d0123, h.d23, by simpa [Arr] using h.rd01⟩ ?_
  · refine H.mono fun s' h' => ?_
    obtain ⟨h1, h2, h3, h4, h5, h5'⟩ := h'
    exact ⟨h1, h2, h3, h4, ⟨h5, fun k hk => by rw [h5' k hk, if_pos hk]⟩⟩
  · intro i s' hi h'
    obtain ⟨h1, h2, h3, h4, h5, h5'⟩ := h'
    unfold karaStage3
    rw [rd_ok 0 (by omega), ok_bind, h1.rd (by omega), ok_bind, h1.rd (by kn), ok_bind, wr_ok (by omega),
      ok_bind]
    refine Ok.pure ⟨h1, h2, h3, h4, by simpa using h5, ?_⟩
    intro k hk
    rw [getD_set, h5, h5' k hk, h5' i hi, if_neg (Nat.lt_irrefl i)]
    have := e i hi
    by_cases hik : i = k
    · subst hik
      simpa [KN, hi] using this
    · have : (k < i + 1) = (k < i) := by apply propext; omega
      simp [hik, this]

theorem loop_stage4 {s : KS} {F D01 D0123 D23 G : R16[X]} (h : KInv s F D01 D0123 D23 G) (hG : Deg G 63) :
    Ok (loop (KN - 1) s karaStage4) fun s' => KInv s' (F + X ^ 32 * G) D01 D0123 D23 G := by
  have H := loop_inv (n := 63) (s := s) (body := karaStage4) (fun i s' =>
    KInv s' (F + X ^ 32 * trunc G i) D01 D0123 D23 G) ?_ ?_
  · refine H.mono fun s' h' => ?_
    rwa [trunc_eq hG] at h'
  · refine h.congr ?_ rfl rfl rfl rfl; simp [trunc_zero]
  · intro i s' hi h'
    unfold karaStage4
    rw [h'.rd01.rd hi, ok_bind]
    refine (h'.rf.addTo (by kn) _).bind fun r1 g1 => ?_
    refine Ok.pure ⟨g1.congr ?_, h'.d01, h'.d0123, h'.d23, h'.rd01⟩
    simp only [trunc_succ, KN, Nat.reduceMul, Nat.reduceDiv]; ring

/-- `karatsuba_simple` returns the 127 coefficients of the product, exactly modulo `2^16`. -/
theorem karatsuba_simple_ok {a b rf0 : List R16} (ha : a.length = 64) (hb : b.length = 64) (hr : rf0.length = 127) :
    Ok (karatsuba_simple a b rf0) fun r => Arr r 127 (S a 0 64 * S b 0 64) := by
  unfold karatsuba_simple
  have m (x : List R16) (n : Nat) (h : x.length = n) : memset x 0 0 n = .ok (List.replicate n 0) := by
    rw [memset_ok _ _ _ _ (by omega), writeAt_full _ _ (by simp [h])]
  rw [m _ _ (by simp), ok_bind, m _ _ (by simp), ok_bind, m _ _ (by simp), ok_bind, m _ _ (by simp), ok_bind,
    m _ _ (by simp [hr, KN]), ok_bind]
  refine (karaMul_ok ha hb ⟨Arr.zero 127, Arr.zero 31, Arr.zero 31, Arr.zero 31, Arr.zero 63⟩).bind fun s h => ?_
  have eA : S a 0 64 = S a 0 16 + X ^ 16 * S a 16 16 + X ^ 32 * S a 32 16 + X ^ 48 * S a 48 16 := by
    rw [show 64 = 16 + (16 + (16 + 16)) from rfl, S_add, S_add, S_add]; simp only [Nat.zero_add, Nat.reduceAdd]; ring
  have eB : S b 0 64 = S b 0 16 + X ^ 16 * S b 16 16 + X ^ 32 * S b 32 16 + X ^ 48 * S b 48 16 := by
    rw [show 64 = 16 + (16 + (16 + 16)) from rfl, S_add, S_add, S_add]; simp only [Nat.zero_add, Nat.reduceAdd]; ring
  rw [eA, eB]
  have dA0 := Deg.S a 0 16; have dA1 := Deg.S a 16 16; have dA2 := Deg.S a 32 16; have dA3 := Deg.S a 48 16
  have dB0 := Deg.S b 0 16; have dB1 := Deg.S b 16 16; have dB2 := Deg.S b 32 16; have dB3 := Deg.S b 48 16
  generalize S a 0 16 = A0 at *; generalize S a 16 16 = A1 at *
  generalize S a 32 16 = A2 at *; generalize S a 48 16 = A3 at *
  generalize S b 0 16 = B0 at *; generalize S b 16 16 = B1 at *
  generalize S b 32 16 = B2 at *; generalize S b 48 16 = B3 at *
  have p0 : Deg (A0 * B0) 31 := dA0.mul dB0
  have p1 : Deg (A1 * B1) 31 := dA1.mul dB1
  have p2 : Deg (A2 * B2) 31 := dA2.mul dB2
  have p3 : Deg (A3 * B3) 31 := dA3.mul dB3
  have p02 : Deg ((A0 + A2) * (B0 + B2)) 31 := (dA0.add dA2).mul (dB0.add dB2)
  have p13 : Deg ((A1 + A3) * (B1 + B3)) 31 := (dA1.add dA3).mul (dB1.add dB3)
  have p01 : Deg ((A0 + A1) * (B0 + B1)) 31 := (dA0.add dA1).mul (dB0.add dB1)
  have p23 : Deg ((A2 + A3) * (B2 + B3)) 31 := (dA2.add dA3).mul (dB2.add dB3)
  have pall : Deg ((A0 + A1 + A2 + A3) * (B0 + B1 + B2 + B3)) 31 :=
    (((dA0.add dA1).add dA2).add dA3).mul (((dB0.add dB1).add dB2).add dB3)
  refine (loop_stage1 h (D01' := (A0 + A1) * (B0 + B1) - A0 * B0 - A1 * B1)
    (D0123' := (A0 + A1 + A2 + A3) * (B0 + B1 + B2 + B3) - (A0 + A2) * (B0 + B2) - (A1 + A3) * (B1 + B3))
    (D23' := (A2 + A3) * (B2 + B3) - A2 * B2 - A3 * B3) ?_ ?_ ?_).bind fun s1 h1 => ?_
  · intro k hk
    have q0 := p0 (k + 32) (by omega)
    simp [coeff_X_pow_mul', show ¬ 32 ≤ k by omega, show ¬ 64 ≤ k by omega, show ¬ 96 ≤ k by omega,
      show ¬ 64 ≤ k + 32 by omega, show ¬ 96 ≤ k + 32 by omega, q0]
  · intro k hk
    have q0 := p02 (k + 32) (by omega)
    simp [coeff_X_pow_mul', show ¬ 32 ≤ k by omega, q0]
  · intro k hk
    have q0 := p0 (k + 64) (by omega)
    have q1 := p1 (k + 32) (by omega)
    have q0' := p0 (k + 96) (by omega)
    have q1' := p1 (k + 64) (by omega)
    have q2' := p2 (k + 32) (by omega)
    have e1 : k + 64 - 32 = k + 32 := by omega
    have e2 : k + 96 - 32 = k + 64 := by omega
    have e3 : k + 96 - 64 = k + 32 := by omega
    simp [coeff_X_pow_mul', show ¬ 96 ≤ k + 64 by omega, show 32 ≤ k + 64 by omega, show 32 ≤ k + 96 by omega,
      show 64 ≤ k + 96 by omega, q0, q0', e1, e2, e3, q1, q1', q2']
  refine (loop_stage2 h1 ((p01.sub p0).sub p1) ((pall.sub p02).sub p13) ((p23.sub p2).sub p3)).bind fun s2 h2 => ?_
  have lo : Deg ((A0 + X ^ 16 * A1) * (B0 + X ^ 16 * B1)) 63 :=
    ((dA0.mono (by omega)).add (dA1.xmul 16)).mul ((dB0.mono (by omega)).add (dB1.xmul 16))
  have hi : Deg ((A2 + X ^ 16 * A3) * (B2 + X ^ 16 * B3)) 63 :=
    ((dA2.mono (by omega)).add (dA3.xmul 16)).mul ((dB2.mono (by omega)).add (dB3.xmul 16))
  have lohi : Deg ((A0 + A2 + X ^ 16 * (A1 + A3)) * (B0 + B2 + X ^ 16 * (B1 + B3))) 63 :=
    (((dA0.add dA2).mono (by omega)).add ((dA1.add dA3).xmul 16)).mul
      (((dB0.add dB2).mono (by omega)).add ((dB1.add dB3).xmul 16))
  replace h2 := h2.congr
    (a' := (A0 + X ^ 16 * A1) * (B0 + X ^ 16 * B1) + X ^ 64 * ((A2 + X ^ 16 * A3) * (B2 + X ^ 16 * B3)))
    (by ring) rfl rfl rfl
    (e' := (A0 + A2 + X ^ 16 * (A1 + A3)) * (B0 + B2 + X ^ 16 * (B1 + B3))) (by ring)
  refine (loop_stage3 h2 (G' := (A0 + A2 + X ^ 16 * (A1 + A3)) * (B0 + B2 + X ^ 16 * (B1 + B3))
    - (A0 + X ^ 16 * A1) * (B0 + X ^ 16 * B1) - (A2 + X ^ 16 * A3) * (B2 + X ^ 16 * B3)) ?_).bind fun s3 h3 => ?_
  · intro k hk
    have q0 := lo (k + 64) (by omega)
    simp only [coeff_sub, coeff_add _ (X ^ 64 * _), coeff_X_pow_mul', q0, if_neg (show ¬ 64 ≤ k by omega),
      if_pos (show 64 ≤ k + 64 by omega), Nat.add_sub_cancel, add_zero, zero_add]
  refine (loop_stage4 h3 ((lohi.sub lo).sub hi)).bind fun s4 h4 => ?_
  refine Ok.pure (h4.rf.congr ?_)
  ring

end Saber
