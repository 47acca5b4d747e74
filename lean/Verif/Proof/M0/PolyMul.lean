import Verif.Proof.M0.Kara
import Verif.Proof.Toom
/-!
# `pol_mul` of the Cortex-M0 port adds the product in `Z[X]/(X^256+1)`
-/
namespace Saber.M0
open Saber Polynomial

/-- A step of the inner loop of `school_book_mul2_16`. -/
theorem school_spec {E : UB → Prop} {mac : Mac} (hm : ∀ c a b, OkE E (mac c a b) (· = c + a * b)) :
    LeafSpec E 16 (school_book_mul2_16 mac) := by
  intro a ao b bo c o ha hb hc hz
  have H : OkE E (school_book_mul2_16 mac a ao b bo c o) fun c' => Fr o 31 c c' ∧
      ∀ j, j < 31 → c'.getD (o + j) 0 = (if j < 16 then c.getD (o + j) 0 else 0) + (S a ao 16 * S b bo 16).coeff j := by
    unfold school_book_mul2_16
    refine OkE.loop_inv (fun i c' => Fr o 31 c c' ∧
      ∀ j, j < 31 → c'.getD (o + j) 0 = (if j < 16 then c.getD (o + j) 0 else 0) + (S a ao i * S b bo 16).coeff j) ?_ ?_
    · refine ⟨Fr.refl _ _ _, fun j hj => ?_⟩
      rw [S_zero, zero_mul, coeff_zero, add_zero]
      split
      · rfl
      · exact hz.at (j - 16) (by omega) (by omega)
    · intro i c1 hi I
      refine (OkE.loop_inv (fun m c' => Fr o 31 c c' ∧
        ∀ j, j < 31 → c'.getD (o + j) 0 = (if j < 16 then c.getD (o + j) 0 else 0) +
          (S a ao i * S b bo 16 + C (a.getD (ao + i) 0) * X ^ i * S b bo m).coeff j) ?_ ?_).mono fun c2 J => ?_
      · refine ⟨I.1, fun j hj => ?_⟩
        rw [I.2 j hj, S_zero, mul_zero, add_zero]
      · intro m c2 hm' J
        rw [rd_ok 0 (by omega), ok_bind, rd_ok 0 (by omega), ok_bind, rd_ok 0 (by rw [J.1.1]; omega), ok_bind]
        refine (hm _ _ _).bind fun v hv => ?_
        rw [wr_ok (by rw [J.1.1]; omega)]
        refine OkE.of_ok (Ok.pure ⟨⟨by rw [List.length_set]; exact J.1.1, fun j hj => ?_⟩, fun j hj => ?_⟩)
        · rw [getD_set, if_neg (by omega)]; exact J.1.2 j hj
        · rw [getD_set, S_succ b bo m, mul_add, ← add_assoc (S a ao i * _),
            coeff_add (S a ao i * _ + _),
            show C (a.getD (ao + i) 0) * X ^ i * (C (b.getD (bo + m) 0) * X ^ m)
              = C (a.getD (ao + i) 0 * b.getD (bo + m) 0) * X ^ (i + m) by rw [C_mul]; ring, coeff_C_mul_X_pow]
          by_cases e : j = i + m
          · subst e
            rw [if_pos ⟨rfl, by rw [J.1.1]; omega⟩, if_pos rfl, hv, J.2 _ hj, add_assoc]
          · rw [if_neg (by omega), if_neg e, add_zero, J.2 _ hj]
      · refine ⟨J.1, fun j hj => ?_⟩
        rw [J.2 j hj, S_succ a, add_mul]
  refine H.mono fun c' h => ⟨h.1, fun j hj => ?_, fun j hj => ?_⟩
  · rw [h.2 (0 + j) (by omega), Nat.zero_add, if_pos hj]
  · rw [h.2 (16 + j) (by omega), if_neg (by omega), zero_add]

theorem top_spec {E : UB → Prop} {mac : Mac} (hm : ∀ c a b, OkE E (mac c a b) (· = c + a * b)) :
    LeafSpec E 256 (unrolled_kara_mem_top mac) :=
  kara_spec (h := 64) rfl (by omega) (kara_spec (h := 16) rfl (by omega) (school_spec hm))

theorem fillLoop_ok (n tag : Nat) (v : R16) : Ok (loop n (uninit 16 tag n) fun i c => wr c i v)
    fun c0 => c0.length = n ∧ ∀ j, j < n → c0.getD j 0 = v := by
  refine (loop_inv (fun t (c : List R16) => c.length = n ∧ ∀ j, j < t → c.getD j 0 = v) ?_ ?_)
  · exact ⟨by simp, fun j hj => by omega⟩
  · intro t c ht I
    rw [wr_ok (by omega)]
    refine Ok.pure ⟨by rw [List.length_set]; exact I.1, fun j hj => ?_⟩
    rw [getD_set]
    split
    · rfl
    · exact I.2 j (by omega)

open Spec in
/-- Coefficients of the reduction modulo `X^256 + 1`. -/
theorem negacyclic_coeff16 (a b : List R16) (k : Fin 256) :
    (S a 0 256 * S b 0 256).coeff k.val - (S a 0 256 * S b 0 256).coeff (k.val + 256) = u16 (negMul (toP a) (toP b) k) := by
  have e : S a 0 256 * S b 0 256 = ∑ i ∈ Finset.range 256, C (a.getD i 0) * X ^ i * S b 0 256 := by
    rw [← Finset.sum_mul]; simp only [S, Nat.zero_add]
  have u (x : Int) : u16 x = ((x : Int) : R16) := rfl
  rw [e, finsetSum_coeff, finsetSum_coeff, ← Finset.sum_sub_distrib, negMul, u, Int.cast_sum, Finset.sum_range]
  refine Finset.sum_congr rfl fun i _ => ?_
  have hk := k.isLt
  have hi := i.isLt
  rw [mul_assoc, coeff_C_mul, coeff_C_mul, coeff_X_pow_mul', coeff_X_pow_mul', S_coeff, S_coeff]
  have hr (x : R16) : ((x.toNat : Int) : R16) = x := by rw [← u]; exact u16_prom x
  by_cases h : i ≤ k
  · have h' : i.val ≤ k.val := h
    have e1 : (k - i).val = k.val - i.val := Fin.sub_val_of_le h
    rw [if_pos h', if_pos (show i.val ≤ k.val + 256 by omega), if_pos (show k.val - i.val < 256 by omega),
      if_neg (show ¬ k.val + 256 - i.val < 256 by omega), mul_zero, sub_zero, if_pos h, Nat.zero_add]
    simp only [toP, e1]
    rw [Int.cast_mul, Int.cast_mul, hr, hr]; simp
  · have h' : ¬ i.val ≤ k.val := h
    have e1 : (k - i).val = k.val + 256 - i.val := by
      rw [Fin.sub_def]; simp only; omega
    rw [if_neg h', if_pos (show i.val ≤ k.val + 256 by omega), if_pos (show k.val + 256 - i.val < 256 by omega),
      mul_zero, zero_sub, if_neg h, Nat.zero_add]
    simp only [toP, e1]
    rw [Int.cast_mul, Int.cast_mul, hr, hr, Int.cast_neg, Int.cast_one]; ring

open Spec in
/-- `pol_mul` adds the product in `Z[X]/(X^256+1)` to `res`, modulo `2^16`. -/
theorem pol_mul_spec {E : UB → Prop} {mac : Mac} (hm : ∀ c a b, OkE E (mac c a b) (· = c + a * b)) {a b res : List R16}
    (ha : a.length = 256) (hb : b.length = 256) (hr : res.length = 256) :
    OkE E (pol_mul mac a b res) fun r => r.length = 256 ∧
      ∀ k : Fin 256, toP r k % 65536 = (toP res k + negMul (toP a) (toP b) k) % 65536 := by
  unfold pol_mul
  refine OkE.bind (OkE.of_ok (fillLoop_ok 512 101 _)) fun c0 hc0 => ?_
  have z : ∀ j, j < 512 → c0.getD j 0 = 0 := hc0.2
  have hV : V c0 0 256 (256 - 1) (fun _ => 0) := by
    intro i hi
    exact z _ (by omega)
  have T := top_spec hm a 0 b 0 c0 0 (by omega) (by omega) (by rw [hc0.1]; omega) hV
  refine OkE.bind T fun c1 h1 => ?_
  clear T hV
  obtain ⟨fr, v1, v2⟩ := h1
  have l1 : c1.length = 512 := fr.1.trans hc0.1
  have D : Deg (S a 0 256 * S b 0 256) 511 := (Deg.S _ _ _).mul (Deg.S _ _ _)
  refine OkE.bind (OkE.of_ok (loop_inv (fun t c => c.length = 512 ∧
    ∀ j, j < 512 → c.getD j 0 = if j < t then c1.getD j 0 - c1.getD (j + 256) 0 else c1.getD j 0) ?_ ?_)) fun c2 h2 => ?_
  · exact ⟨l1, fun j _ => by rw [if_neg (by omega)]⟩
  · intro t c ht I
    dsimp only
    rw [rd_ok 0 (by omega), ok_bind, rd_ok 0 (by omega), ok_bind, wr_ok (by omega)]
    refine Ok.pure ⟨by rw [List.length_set]; exact I.1, fun j hj => ?_⟩
    rw [getD_set, Nat.add_sub_cancel_left]
    have e1 := I.2 t (by omega)
    have e2 := I.2 (256 + t) (by omega)
    rw [if_neg (by omega)] at e1 e2
    rw [e1, e2, I.2 j hj]
    by_cases e : t = j
    · subst e
      rw [if_pos ⟨rfl, by omega⟩, if_pos (by omega), Nat.add_comm]
    · rw [if_neg (by omega)]
      have : (j < t + 1) = (j < t) := by apply propext; omega
      simp only [this]
  refine (OkE.of_ok (loop_inv (fun t r => r.length = 256 ∧
    ∀ j, j < 256 → r.getD j 0 = res.getD j 0 + if j < t then c2.getD j 0 else 0) ?_ ?_)).mono fun r h => ?_
  · exact ⟨hr, fun j _ => by rw [if_neg (by omega), add_zero]⟩
  · intro t r ht I
    rw [rd_ok 0 (by omega), ok_bind, rd_ok 0 (by omega), ok_bind, wr_ok (by omega)]
    refine Ok.pure ⟨by rw [List.length_set]; exact I.1, fun j hj => ?_⟩
    have e1 := I.2 t (by omega)
    rw [if_neg (by omega), add_zero] at e1
    rw [getD_set, e1, I.2 j hj]
    by_cases e : t = j
    · subst e
      rw [if_pos ⟨rfl, by omega⟩, if_pos (by omega)]
    · rw [if_neg (by omega)]
      have : (j < t + 1) = (j < t) := by apply propext; omega
      simp only [this]
  refine ⟨h.1, fun k => ?_⟩
  have hk := k.isLt
  have e : r.getD k.val 0 = res.getD k.val 0 + u16 (negMul (toP a) (toP b) k) := by
    rw [h.2 _ hk, if_pos hk, h2.2 _ (by omega), ← negacyclic_coeff16]
    have e1 : c1.getD k.val 0 = (S a 0 256 * S b 0 256).coeff k.val := by
      rw [v1.at k.val hk (by omega), z _ (by omega), zero_add]
    by_cases hk' : k.val < 255
    · rw [if_pos hk', e1, v2.at k.val (by omega) (by omega), Nat.add_comm 256]
    · rw [if_neg hk', e1, D (k.val + 256) (by omega), sub_zero]
  rw [← u16_eq_iff, u16_add]
  show u16 (prom (r.getD k.val 0)) = u16 (prom (res.getD k.val 0)) + _
  rw [u16_prom, u16_prom, e]

theorem macC_spec (c a b : BitVec 16) : OkE (· = UB.signedOverflow) (macC c a b) (· = c + a * b) := by
  unfold macC imul iadd ckInt
  split
  · rw [ok_bind]
    split
    · refine .inl ⟨_, rfl, ?_⟩
      rw [u16_add, u16_mul, u16_prom, u16_prom, u16_prom]
    · exact .inr ⟨_, rfl, rfl⟩
  · exact .inr ⟨_, rfl, rfl⟩

theorem macWrap_spec (c a b : BitVec 16) : OkE (fun _ => False) (macWrap c a b) (· = c + a * b) := .inl ⟨_, rfl, rfl⟩

theorem loop_error_first {σ : Type} {n : Nat} {s : σ} {body : Nat → σ → CM σ} {e : UB} (hn : 0 < n) (h : body 0 s = .error e) :
    loop n s body = .error e := by
  induction n with
  | zero => omega
  | succ n ih =>
    rw [loop_succ]
    rcases Nat.eq_zero_or_pos n with rfl | hn'
    · exact h
    · rw [ih hn']; rfl

/-- The first multiplication of `school_book_mul2_16` overflows. -/
theorem school_overflow {a b c : List R16} {ao bo o : Nat} (ha : ao < a.length) (hb : bo < b.length) (hc : o < c.length)
    (h : 2147483647 < prom (a.getD ao 0) * prom (b.getD bo 0)) :
    school_book_mul2_16 macC a ao b bo c o = .error .signedOverflow := by
  unfold school_book_mul2_16
  refine loop_error_first (by omega) (loop_error_first (by omega) ?_)
  rw [rd_ok 0 (by omega), ok_bind, rd_ok 0 (by omega), ok_bind, rd_ok 0 (by omega), ok_bind]
  unfold macC imul ckInt
  dsimp only [Nat.add_zero]
  rw [if_neg (by omega)]
  rfl

/-- The first product inside the Karatsuba routine multiplies the sums of the four quarters. -/
theorem kara_error {k h : Nat} (hk : k = 2 * h) (hh : 2 ≤ h) {leaf : Leaf} {a c d : List R16} {ao co o : Nat}
    (ha : ao + 4 * h ≤ a.length) (hc : co + 4 * h ≤ c.length) (hd : o + (8 * h - 1) ≤ d.length) {e : UB}
    (hl : ∀ t d' p p', t.length = h → d'.length = d.length → p + h ≤ d'.length → p' + (2 * h - 1) ≤ d'.length →
      (∀ i, i < h → t.getD i 0 = a.getD (ao + i) 0 + a.getD (ao + (2*h + i)) 0 + (a.getD (ao + (h + i)) 0 + a.getD (ao + (3*h + i)) 0)) →
      (∀ i, i < h → d'.getD (p + i) 0 = c.getD (co + i) 0 + c.getD (co + (h + i)) 0 + c.getD (co + (2*h + i)) 0 + c.getD (co + (3*h + i)) 0) →
      leaf t 0 d' p d' p' = .error e) :
    kara k leaf a ao c co d o = .error e := by
  unfold kara
  dsimp only
  obtain ⟨s1, e1, H1⟩ := (ph1 (s := ⟨d, uninit 16 (100 + k) (k / 2)⟩) (o := o) hk hh ha hc (by exact hd) (by rw [length_uninit]; omega)
    (fun _ _ => rfl) (fun _ _ => rfl) (fun _ _ => rfl) (fun _ _ => rfl) (fun _ _ => rfl) (fun _ _ => rfl) (fun _ _ => rfl) (fun _ _ => rfl)
    (fun _ _ => rfl) (fun _ _ => rfl) (fun _ _ => rfl) (fun _ _ => rfl))
  obtain ⟨r, t1, -, -, -, -, -, a5, -, -, at1⟩ := H1
  rw [← bind_assoc, e1, ok_bind, hl s1.t s1.d _ _ t1 r.1 (by rw [r.1]; dsimp only; omega) (by rw [r.1]; dsimp only; omega)]
  · rfl
  · intro i hi
    rw [at1.at i hi (by omega), show k / 2 + i = h + i by omega, show k + i = 2*h + i by omega, show k + k/2 + i = 3*h+i by omega]
  · intro i hi
    rw [a5.at i hi (by omega), show k / 2 + i = h + i by omega, show k + i = 2*h + i by omega, show k + k/2 + i = 3*h+i by omega]

/-- The sum of every sixteenth coefficient, starting with the first one. -/
def sum16 (a : List R16) : R16 := ((List.range 16).map fun m => a.getD (16 * m) 0).sum

/-- `pol_mul` overflows in its very first multiplication. -/
theorem pol_mul_overflow {a b res : List R16} (ha : a.length = 256) (hb : b.length = 256)
    (h : 2147483647 < prom (sum16 a) * prom (sum16 b)) :
    pol_mul macC a b res = .error .signedOverflow := by
  unfold pol_mul
  obtain ⟨c0, e0, hc0⟩ := fillLoop_ok 512 101 0
  rw [e0, ok_bind]
  have T : unrolled_kara_mem_top macC a 0 b 0 c0 0 = .error .signedOverflow := by
    refine kara_error (h := 64) rfl (by omega) (by omega) (by omega) (by rw [hc0.1]; omega) ?_
    intro t d p p' lt ld hp hp' ht hd
    refine kara_error (h := 16) rfl (by omega) (by omega) (by omega) (by omega) ?_
    intro t' d' q q' lt' ld' hq hq' ht' hd'
    refine school_overflow (by omega) (by omega) (by omega) ?_
    have e1 := ht' 0 (by omega)
    have e2 := hd' 0 (by omega)
    rw [ht _ (by omega), ht _ (by omega), ht _ (by omega), ht _ (by omega)] at e1
    rw [hd _ (by omega), hd _ (by omega), hd _ (by omega), hd _ (by omega)] at e2
    have f1 : t'.getD 0 0 = sum16 a := by
      rw [e1]
      simp only [sum16, List.range, List.range.loop, List.map_cons, List.map_nil, List.sum_cons, List.sum_nil, Nat.reduceMul, Nat.reduceAdd]
      ring
    have f2 : d'.getD q 0 = sum16 b := by
      rw [Nat.add_zero] at e2
      rw [e2]
      simp only [sum16, List.range, List.range.loop, List.map_cons, List.map_nil, List.sum_cons, List.sum_nil, Nat.reduceMul, Nat.reduceAdd]
      ring
    rw [f1, f2]; exact h
  rw [T]
  rfl

end Saber.M0
