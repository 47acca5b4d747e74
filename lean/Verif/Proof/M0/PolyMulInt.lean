import Verif.Proof.M0.KaraInt
/-!
# `pol_mul` of the Cortex-M0 port with interrupts
-/
namespace Saber.M0
open Saber Polynomial

open Spec in
/-- `pol_mul` with interrupts. -/
theorem pol_mulI_spec {E : UB → Prop} {mac : Mac} (hm : ∀ c a b, OkE E (mac c a b) (· = c + a * b)) {intr : Interrupts}
    (hi : ∀ n t, t.length = 64 → (intr n t).length = 64) {a b res t : List R16}
    (ha : a.length = 256) (hb : b.length = 256) (hr : res.length = 256) (ht : t.length = 64) :
    OkE E (pol_mulI mac intr a b res t) fun r => r.1.length = 256 ∧
      (∀ k, k < 256 → r.1.getD k 0 = res.getD k 0 + ((total intr 64 a 0 b 0).coeff k - (total intr 64 a 0 b 0).coeff (256 + k))) ∧
      r.2 = intr 9 (intr 8 (intr 7 (scratch 64 a 0 b 0 7))) := by
  unfold pol_mulI
  refine OkE.bind (OkE.of_ok (fillLoop_ok 512 101 _)) fun c0 hc0 => ?_
  have z : ∀ j, j < 512 → c0.getD j 0 = 0 := hc0.2
  have hV : V c0 0 256 (256 - 1) (fun _ => 0) := by
    intro i hi
    exact z _ (by omega)
  have T := karaI_spec (k := 128) (h := 64) rfl (by omega) (kara_spec (k := 32) (h := 16) rfl (by omega) (school_spec hm)) hi (a := a) (ao := 0)
    (c := b) (co := 0) (d := c0) (o := 0) (by omega) (by omega) (by rw [hc0.1]; omega) hV ht
  refine OkE.bind T fun c1 h1 => ?_
  clear T hV
  obtain ⟨c1, t1⟩ := c1
  obtain ⟨⟨fr, v1, v2⟩, et⟩ := h1
  dsimp only at fr v1 v2 et
  have l1 : c1.length = 512 := fr.1.trans hc0.1
  have D : c1.getD 511 0 = 0 := by rw [fr.2 511 (by omega)]; exact z _ (by omega)
  have D' : (total intr 64 a 0 b 0).coeff 511 = 0 := total_deg _ (by omega) _ _ _ _ _ (by omega)
  refine OkE.bind (OkE.of_ok (loop_inv (fun t c => c.length = 512 ∧
    ∀ j, j < 512 → c.getD j 0 = if j < t then c1.getD j 0 - c1.getD (j + 256) 0 else c1.getD j 0) ?_ ?_)) fun c2 h2 => ?_
  · exact ⟨l1, fun j _ => by rw [if_neg (by omega)]⟩
  · intro t c ht I
    dsimp only
    rw [rd_ok 0 (by omega), ok_bind, rd_ok 0 (by omega), ok_bind, wr_ok (by omega)]
    refine Ok.pure ⟨by rw [List.length_set]; exact I.1, fun j hj => ?_⟩
    rw [getD_set, Nat.add_sub_cancel_left]
    have e1 := I.2 t (by omega)
    have e2 := I.2 (256 + t) (by omega)
    rw [if_neg (by omega)] at e1 e2
    rw [e1, e2, I.2 j hj]
    by_cases e : t = j
    · subst e
      rw [if_pos ⟨rfl, by omega⟩, if_pos (by omega), Nat.add_comm]
    · rw [if_neg (by omega)]
      have : (j < t + 1) = (j < t) := by apply propext; omega
      simp only [this]
  refine (OkE.of_ok (loop_inv (fun t r => r.length = 256 ∧
    ∀ j, j < 256 → r.getD j 0 = res.getD j 0 + if j < t then c2.getD j 0 else 0) ?_ ?_)).bind fun r h => ?_
  · exact ⟨hr, fun j _ => by rw [if_neg (by omega), add_zero]⟩
  · intro t r ht I
    rw [rd_ok 0 (by omega), ok_bind, rd_ok 0 (by omega), ok_bind, wr_ok (by omega)]
    refine Ok.pure ⟨by rw [List.length_set]; exact I.1, fun j hj => ?_⟩
    have e1 := I.2 t (by omega)
    rw [if_neg (by omega), add_zero] at e1
    rw [getD_set, e1, I.2 j hj]
    by_cases e : t = j
    · subst e
      rw [if_pos ⟨rfl, by omega⟩, if_pos (by omega)]
    · rw [if_neg (by omega)]
      have : (j < t + 1) = (j < t) := by apply propext; omega
      simp only [this]
  refine OkE.pure ⟨h.1, fun k hk => ?_, et⟩
  dsimp only
  rw [h.2 _ hk, if_pos hk, h2.2 _ (by omega)]
  have e1 : c1.getD k 0 = (total intr 64 a 0 b 0).coeff k := by
    rw [v1.at k hk (by omega), z _ (by omega), zero_add]
  by_cases hk' : k < 255
  · rw [if_pos hk', e1, v2.at k (by omega) (by omega)]
  · have : k = 255 := by omega
    subst this
    rw [if_neg (by omega), e1, D', sub_zero]

end Saber.M0
