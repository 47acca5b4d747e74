import Verif.Proof.Sanity
/-!
# C83: the lattice experiment (`Scripts/Sage_Scripts/sanity_check.sage`)

All theorems hold for every degree, every modulus, all random draws and every behaviour of the lattice reduction.
-/
namespace Saber.Props
open Saber.Sanity Saber.Spec

/-- The instances.  The secrets are in `[-2, 2]`, the errors in `[-4, 3]`, all public values in `[0, q)`, and `A = a * G + e` modulo `q`.
With rounding, `A` is the product `a * G` rounded to the nearest multiple of 8, halves downwards. -/
theorem C83_instances {n q : Nat} (hq : 0 < q) (D : Draws n q) (rounding : Bool) :
    ∃ X, input D rounding = some X ∧
      (∀ i, -2 ≤ X.a1 i ∧ X.a1 i ≤ 2 ∧ -2 ≤ X.a2 i ∧ X.a2 i ≤ 2) ∧
      (∀ i, -4 ≤ X.e1 i ∧ X.e1 i ≤ 3 ∧ -4 ≤ X.e2 i ∧ X.e2 i ≤ 3) ∧
      (∀ r ∈ [X.G11, X.G12, X.G21, X.G22, X.A1, X.A2], ∀ i, 0 ≤ r i ∧ r i < q) ∧
      (∀ i, X.A1 i ≡ ringMul X.a1 X.G11 i + ringMul X.a2 X.G21 i + X.e1 i [ZMOD q]) ∧
      (∀ i, X.A2 i ≡ ringMul X.a1 X.G12 i + ringMul X.a2 X.G22 i + X.e2 i [ZMOD q]) ∧
      (rounding = true → 8 ∣ q → ∀ i, X.A1 i = roundDown8 (q / 8) (ringMul X.a1 X.G11 i + ringMul X.a2 X.G21 i) ∧
        X.A2 i = roundDown8 (q / 8) (ringMul X.a1 X.G12 i + ringMul X.a2 X.G22 i)) := by
  refine ⟨_, input_eq D rounding, ?_, ?_, ?_, ?_, ?_, ?_⟩
  · have h : ∀ (c : Fin n → Fin 4 → Fin 2) i, -2 ≤ randomsmall c i ∧ randomsmall c i ≤ 2 := by
      intro c i
      have h4 : ∀ k, (c i k).val < 2 := fun k => (c i k).isLt
      have h0 := h4 0; have h1 := h4 1; have h2 := h4 2; have h3 := h4 3
      simp only [randomsmall, randomsmallcoeff, Fin.sum_univ_four]
      omega
    exact fun i => ⟨(h _ i).1, (h _ i).2, (h _ i).1, (h _ i).2⟩
  · intro i
    cases rounding
    · have h : ∀ (e : Fin n → Fin 8), -4 ≤ noise8 e i ∧ noise8 e i ≤ 3 := by
        intro e; have := (e i).isLt; simp only [noise8]; omega
      exact ⟨(h _).1, (h _).2, (h _).1, (h _).2⟩
    · simp only [inputVal, errors, if_true]
      omega
  · have hg : ∀ (g : Fin n → Fin q) (i : Fin n), 0 ≤ randomq g i ∧ randomq g i < q := by intro g i; simp [randomq]
    intro r hr
    simp only [List.mem_cons, List.not_mem_nil, or_false] at hr
    rcases hr with rfl | rfl | rfl | rfl | rfl | rfl
    · exact hg _
    · exact hg _
    · exact hg _
    · exact hg _
    · exact reduce_range hq _
    · exact reduce_range hq _
  · intro i; exact Int.mod_modEq _ _
  · intro i; exact Int.mod_modEq _ _
  · rintro rfl ⟨p, rfl⟩ i
    have h : ∀ x : Int, (x + ((4 - x) % 8 - 4)) % ((8 * p : Nat) : Int) = roundDown8 (8 * p / 8) x := by
      intro x
      unfold roundDown8
      rw [Nat.mul_div_cancel_left _ (by norm_num)]
      have : x + ((4 - x) % 8 - 4) = 8 * ((x + 3) / 8) := by omega
      rw [this, Nat.cast_mul, Nat.cast_ofNat, Int.mul_emod_mul_of_pos _ _ (by norm_num)]
    exact ⟨h _, h _⟩

/-- This is not the rounding of Saber: the two differ exactly for `x = 4` modulo 8 (for a modulus `p > 1`). -/
theorem C83_rounding_differs (p : Nat) (hp : 1 < p) (x : Int) : roundDown8 p x ≠ roundUp8 p x ↔ x % 8 = 4 := by
  unfold roundDown8 roundUp8
  by_cases h : x % 8 = 4
  · have h1 : (x + 4) / 8 = (x + 3) / 8 + 1 := by omega
    rw [h1]
    refine ⟨fun _ => h, fun _ heq => ?_⟩
    have h2 : (x + 3) / 8 ≡ (x + 3) / 8 + 1 [ZMOD p] := mul_left_cancel₀ (by norm_num : (8 : Int) ≠ 0) heq
    have h3 : (p : Int) ∣ 1 := by simpa using h2.dvd
    have := Int.le_of_dvd one_pos h3
    omega
  · have h1 : (x + 4) / 8 = (x + 3) / 8 := by omega
    rw [h1]
    exact ⟨fun h' => absurd rfl h', fun h' => absurd h' h⟩

/-- The coordinates that the script selects: `m` different ones, in increasing order, for every draw. -/
theorem C83_subset (N m : Nat) (hm : m ≤ N) (draw : Nat → Nat) :
    (randomsubset N m draw).length = m ∧ (randomsubset N m draw).Pairwise (· < ·) ∧ ∀ j ∈ randomsubset N m draw, j < N :=
  ⟨randomsubset_length N m hm draw, randomsubset_sorted N m draw, randomsubset_lt N m draw⟩

/-- Every set of coordinates is selected for some draws. -/
theorem C83_every_subset (N : Nat) (S : Finset Nat) (hS : ∀ j ∈ S, j < N) :
    ∃ draw, ∀ j, j ∈ randomsubset N S.card draw ↔ j ∈ S :=
  randomsubset_onto N S hS

/-- The rows that are given to the reduction generate the lattice of the attack, nothing more and nothing less, and it has
determinant `q ^ m`. -/
theorem C83_lattice {n q : Nat} (X : Instance n) (m : Nat) (hm : m ≤ 2 * n) (draw : Nat → Nat) (v : List Int)
    (hv : v.length = m + 1 + 2 * n) :
    |(toMatrix (m + 1 + 2 * n) (coutbasis q X (randomsubset (2 * n) m draw))).det| = (q : Int) ^ m ∧
    ((∃ c, (fun j : Fin (m + 1 + 2 * n) => v.getD j 0) = Matrix.vecMul c (toMatrix (m + 1 + 2 * n) (coutbasis q X (randomsubset (2 * n) m draw)))) ↔
      InLattice q (randomsubset (2 * n) m draw) X.A1 X.A2 X.G11 X.G12 X.G21 X.G22 v) := by
  have hlen := randomsubset_length (2 * n) m hm draw
  have h1 := det_eq q X _ (randomsubset_sorted (2 * n) m draw) (randomsubset_lt (2 * n) m draw)
  have h2 := lattice q X _ (randomsubset_sorted (2 * n) m draw) (randomsubset_lt (2 * n) m draw) v (by rw [hlen, hv])
  rw [hlen] at h1 h2
  exact ⟨h1, h2⟩

/-- The secret is in the lattice, whatever coordinates are chosen. -/
theorem C83_planted {n q : Nat} (D : Draws n q) (rounding : Bool) (X : Instance n) (hX : input D rounding = some X) (S : List Nat) :
    InLattice q S X.A1 X.A2 X.G11 X.G12 X.G21 X.G22 (attackVector S X.e1 X.e2 1 X.a1 X.a2) := by
  rw [input_eq] at hX
  obtain rfl := Option.some.inj hX
  refine ⟨_, _, 1, _, _, rfl, fun j _ => ?_⟩
  conv_lhs => rw [A1_relation, A2_relation]
  rw [pairCoord_add, pairCoord_smul]
  exact (Int.modEq_iff_dvd.2 ⟨_, add_sub_cancel_left _ _⟩).symm

/-- A run that ends with the secret vector or its negative as the first shortest row counts as a success. -/
theorem C83_found {n : Nat} (S : List Nat) (e1 e2 a1 a2 : Fin n → Int) :
    Carries S.length (attackVector S e1 e2 1 a1 a2) a1 a2 ∧ Carries S.length ((attackVector S e1 e2 1 a1 a2).map fun x => -x) a1 a2 :=
  ⟨(readSecret_carries _ _ _ _).1 (readSecret_attackVector S e1 e2 a1 a2 1 (by norm_num)),
    (readSecret_carries _ _ _ _).1 (readSecret_neg S e1 e2 a1 a2 1 (by norm_num))⟩

/-- The output.  No assertion of the script fails.  There is exactly one summary line for every `m = n, n+2, ..., <= 2n`, every block size
`2, 4, ..., 20` and both values of `rounding`; it is about all inputs, and its number of successes is the number of inputs whose
secret shows up in a shortest row after the reductions with block sizes up to that of the line. -/
theorem C83_summary (red : Nat → List (List Int) → List (List Int)) (hred : ∀ b M, M ≠ [] → red b M ≠ []) {n q N : Nat} (hq : 0 < q)
    (D : Fin N → Draws n q) (draw : Fin N → Bool → Nat → Nat → Nat) :
    ∃ out, main red n q N D draw = some out ∧ (out.map Summary.key).Nodup ∧
      (∀ m d b r, (m, d, b, r) ∈ out.map Summary.key ↔
        0 < N ∧ (∃ i, m = n + 2 * i ∧ m ≤ 2 * n) ∧ d = m + 1 + 2 * n ∧ ∃ i, b = 2 + 2 * i ∧ b ≤ 20) ∧
      ∀ s ∈ out, ∀ m d b r, s.key = (m, d, b, r) → s.numinputs = N ∧
        ∃ found : Finset (Fin N), s.successes = found.card ∧
          ∀ i, i ∈ found ↔ ∃ X, input (D i) r = some X ∧
            FoundWith red m X.a1 X.a2 (coutbasis q X (randomsubset (2 * n) m (draw i r m))) b := by
  have hkeys : (summary red D draw).map Summary.key = ((allRows red D draw).map Row.key).dedup := by
    unfold summary
    rw [List.map_map]
    exact List.map_id _
  have hmem : ∀ m d b r, (m, d, b, r) ∈ (summary red D draw).map Summary.key ↔
        0 < N ∧ m ∈ range2 n (2 * n + 1) ∧ d = m + 1 + 2 * n ∧ b ∈ range2 2 21 := by
    intro m d b r
    rw [hkeys, List.mem_dedup, mem_allRows_key]
    unfold allKeys
    rw [List.mem_append, mem_runKeys, mem_runKeys]
    cases r <;> simp
  refine ⟨_, main_eq red hq D draw, ?_, ?_, ?_⟩
  · rw [hkeys]; exact List.nodup_dedup _
  · intro m d b r
    rw [hmem, mem_range2, mem_range2]
    refine and_congr Iff.rfl (and_congr ?_ (and_congr Iff.rfl ?_))
    · constructor
      · rintro ⟨h1, h2, h3⟩; exact ⟨(m - n) / 2, by omega, by omega⟩
      · rintro ⟨i, rfl, h⟩; omega
    · constructor
      · rintro ⟨h1, h2, h3⟩; exact ⟨(b - 2) / 2, by omega, by omega⟩
      · rintro ⟨i, rfl, h⟩; omega
  · intro s hs m d b r hk
    have hin := (hmem m d b r).1 (by rw [← hk]; exact List.mem_map_of_mem hs)
    obtain ⟨-, hm, rfl, hb⟩ := hin
    obtain ⟨key, -, rfl⟩ := List.mem_map.1 hs
    dsimp only at hk
    subst hk
    refine ⟨rfl, Finset.univ.filter fun i => successOf red (D i) (draw i) (m, m + 1 + 2 * n, b, r) = true, rfl, fun i => ?_⟩
    rw [Finset.mem_filter, successOf_iff red hred (D i) (draw i) m b r hm hb]
    constructor
    · rintro ⟨-, h⟩; exact ⟨_, input_eq _ _, h⟩
    · rintro ⟨X, hX, h⟩
      rw [input_eq] at hX
      obtain rfl := Option.some.inj hX
      exact ⟨Finset.mem_univ _, h⟩

/-- Along the block sizes the numbers of successes do not decrease. -/
theorem C83_monotone (red : Nat → List (List Int) → List (List Int)) (hred : ∀ b M, M ≠ [] → red b M ≠ []) {n q N : Nat} (hq : 0 < q)
    (D : Fin N → Draws n q) (draw : Fin N → Bool → Nat → Nat → Nat) (out : List Summary) (hout : main red n q N D draw = some out)
    (s s' : Summary) (hs : s ∈ out) (hs' : s' ∈ out) (m d b b' : Nat) (r : Bool) (hk : s.key = (m, d, b, r)) (hk' : s'.key = (m, d, b', r))
    (hb : b ≤ b') : s.successes ≤ s'.successes := by
  obtain ⟨out', h1, -, -, h⟩ := C83_summary red hred hq D draw
  rw [hout] at h1
  obtain rfl := Option.some.inj h1
  obtain ⟨-, F, hF, hF'⟩ := h s hs m d b r hk
  obtain ⟨-, G, hG, hG'⟩ := h s' hs' m d b' r hk'
  rw [hF, hG]
  apply Finset.card_le_card
  intro i hi
  rw [hG']
  obtain ⟨X, hX, c, hc, hcb, hv⟩ := (hF' i).1 hi
  exact ⟨X, hX, c, hc, hcb.trans hb, hv⟩

/-- A concrete input of degree 2 modulo 16. -/
def sampleDraws : Draws 2 16 where
  coin1 := fun i k => if k.val < 1 + 2 * i.val then 1 else 0
  coin2 := fun _ k => if k.val < 3 then 1 else 0
  g11 := ![12, 7]
  g12 := ![11, 2]
  g21 := ![5, 13]
  g22 := ![1, 6]
  e1 := ![0, 7]
  e2 := ![3, 4]

/-- Its instance with rounding: the rounded products are multiples of 8, and the errors are not zero. -/
example : ∃ X, input sampleDraws true = some X ∧ X.a1 = ![-1, 1] ∧ X.A1 = ![8, 8] ∧ X.e1 = ![3, 1] := by
  refine ⟨_, input_eq _ _, ?_, ?_, ?_⟩ <;> decide +kernel

/-- If the reduction returns the planted vector of this input, the secret is found: the summary counts one success of one. -/
example : ∃ out s, main (fun _ _ => [[3, 1, 1, -1, 1, 1, 1]]) 2 16 1 (fun _ => sampleDraws) (fun _ _ _ j => j) = some out ∧ s ∈ out ∧
    s.key = (2, 7, 20, true) ∧ s.successes = 1 ∧ s.numinputs = 1 := by
  obtain ⟨out, h1, -, h2, h3⟩ := C83_summary (fun _ _ => [[3, 1, 1, -1, 1, 1, 1]]) (fun _ _ _ => List.cons_ne_nil _ _) (n := 2) (q := 16)
    (by norm_num) (fun _ : Fin 1 => sampleDraws) (fun _ _ _ j => j)
  have hk := (h2 2 7 20 true).2 ⟨by norm_num, ⟨0, rfl, by norm_num⟩, rfl, 9, rfl, le_rfl⟩
  obtain ⟨s, hs, hkey⟩ := List.mem_map.1 hk
  obtain ⟨hn, F, hF, hF'⟩ := h3 s hs 2 7 20 true hkey
  refine ⟨out, s, h1, hs, hkey, ?_, hn⟩
  have : F = Finset.univ := by
    rw [Finset.eq_univ_iff_forall]
    intro i
    rw [hF']
    refine ⟨_, input_eq _ _, 1, by norm_num, by norm_num, _, ⟨0, rfl, ?_, ?_⟩, ?_⟩
    · intro w hw; rw [List.mem_singleton.1 hw]
    · intro k' hk'; omega
    · unfold Carries; decide +kernel
  rw [hF, this]
  rfl

end Saber.Props
