import Verif.Model.X4.Pack
import Verif.Proof.X4.Fips202
import Verif.Proof.Avx.Indcpa
import Mathlib.Tactic.IntervalCases
import Mathlib.Tactic.FinCases
/-!
# The vector instructions of SaberX4's packing functions: elements
-/
namespace Saber.X4

/-! ### Lists -/

theorem flatMap_flatMap_range {α : Type} (m n : Nat) (g : Nat → List α) :
    ((List.range m).flatMap fun i => (List.range n).flatMap fun j => g (n * i + j)) = (List.range (n * m)).flatMap g := by
  induction m with
  | zero => simp
  | succ m ih =>
    rw [List.range_succ, List.flatMap_append, ih, Nat.mul_succ, List.range_add, List.flatMap_append, List.flatMap_singleton]
    congr 1
    simp only [List.flatMap_def, List.map_map]
    rfl

theorem flatMap_map_range {α : Type} (m n : Nat) (g : Nat → α) :
    ((List.range m).flatMap fun i => (List.range n).map fun j => g (n * i + j)) = (List.range (n * m)).map g := by
  have h := flatMap_flatMap_range m n fun k => [g k]
  simpa only [flatMap_singleton_eq_map] using h

theorem getD_writeAt {α : Type} (a : List α) (off : Nat) (vs : List α) (h : off + vs.length ≤ a.length) (j : Nat) (d : α) :
    (writeAt a off vs).getD j d = if off ≤ j ∧ j < off + vs.length then vs.getD (j - off) d else a.getD j d := by
  have hl : (a.take off).length = off := by simp; omega
  unfold writeAt
  simp only [List.getD_eq_getElem?_getD]
  by_cases h1 : j < off
  · rw [List.append_assoc, List.getElem?_append_left (by omega), if_neg (by omega), List.getElem?_take_of_lt h1]
  · by_cases h2 : j < off + vs.length
    · rw [List.getElem?_append_left (by simp; omega), List.getElem?_append_right (by omega), hl, if_pos (by omega)]
    · rw [List.getElem?_append_right (by simp; omega), if_neg (by omega)]
      simp only [List.length_append, hl, List.getElem?_drop]
      congr 2; omega

/-- Nested loops that fill an array block by block. -/
theorem nested_blocks {α : Type} (w m n : Nat) (g : Nat → List α) (hg : ∀ k, (g k).length = w) (a : List α) (ha : a.length = w * (n * m))
    (body : Nat → Nat → List α → CM (List α))
    (hb : ∀ i j a', i < m → j < n → a'.length = a.length → body i j a' = wrs a' (w * (n * i + j)) (g (n * i + j))) :
    loop m a (fun i a => loop n a (body i)) = .ok ((List.range (n * m)).flatMap g) := by
  rw [loop_blocks (w * n) (fun i => (List.range n).flatMap fun j => g (n * i + j)) _ m a 0, flatMap_flatMap_range, writeAt_full]
  · rw [length_flatMap_range w g hg, ha, Nat.mul_comm]
  · rw [ha, Nat.mul_assoc]; omega
  · intro i a' hi ha'
    have hin : w * n * i + w * n ≤ w * (n * m) := by
      rw [← Nat.mul_succ, ← Nat.mul_assoc]; exact Nat.mul_le_mul_left _ hi
    have hlen : ((List.range n).flatMap fun j => g (n * i + j)).length = w * n := by
      rw [length_flatMap_range w _ fun _ => hg _, Nat.mul_comm]
    rw [loop_blocks w (fun j => g (n * i + j)) (fun _ => hg _) n a' (w * (n * i)), wrs_ok _ _ _ (by rw [hlen]; omega), Nat.zero_add, Nat.mul_assoc]
    · rw [ha', ha, ← Nat.mul_assoc]; omega
    · intro j a'' hj ha''
      rw [hb i j a'' hi hj (by omega), Nat.mul_add]
  · intro i
    rw [length_flatMap_range w _ fun _ => hg _, Nat.mul_comm]

/-! ### Groups -/

theorem Sim.fourA {τ : Type} {t : Fam τ} {g : Fin 4 → τ → CM τ} : Sim (X4.fourA t g) (fun l => g l (t l)) id := Sim.fam

theorem Sim.run {α β : Type} {m4 : CM α} {m : Fin 4 → CM β} {π : α → Fin 4 → β} (h : Sim m4 m π) {b : Fin 4 → β} (hb : ∀ l, m l = .ok (b l)) :
    Ok m4 fun a => π a = b := h b hb

theorem Sim.eq {α : Type} {m4 : CM (Fam α)} {m : Fin 4 → CM α} (h : Sim m4 m id) {b : Fin 4 → α} (hb : ∀ l, m l = .ok (b l)) :
    m4 = .ok b := by
  obtain ⟨a, ha, e⟩ := h b hb
  rw [ha, ← e]; rfl

/-- Four statements all of which are defined. -/
theorem fourA_ok {τ : Type} {t : Fam τ} {g : Fin 4 → τ → CM τ} {b : Fam τ} (h : ∀ l, g l (t l) = .ok (b l)) : fourA t g = .ok b :=
  Sim.fourA.eq h

theorem famM_ok {α : Type} {f : Fin 4 → CM α} {v : Fam α} (h : ∀ l, f l = .ok (v l)) : famM f = .ok v := by
  simp only [famM, h, ok_bind]
  congr 1
  funext l
  fin_cases l <;> rfl

theorem gather_ok {α : Type} (n : Nat) (f : Nat → CM α) (d : α) (v : Nat → α) (h : ∀ i < n, f i = .ok (v i)) :
    gather n f d = .ok fun k => if k < n then v k else d := by
  unfold gather
  induction n with
  | zero => simp [loop]
  | succ n ih =>
    rw [loop_succ, ih fun i hi => h i (by omega), ok_bind, h n (by omega), ok_bind]
    congr 1
    funext k
    by_cases hk : k = n
    · subst hk; simp
    · rw [if_neg hk]
      show (if k < n then v k else d) = _
      by_cases hk' : k < n
      · rw [if_pos hk', if_pos (by omega)]
      · rw [if_neg hk', if_neg (by omega)]

/-! ### Elements of vectors -/

theorem and8_cat (a b c d : V4) : and8 (insertf128 a b) (insertf128 c d) = insertf128 (fun l => a l &&& c l) (fun l => b l &&& d l) := by
  funext i; unfold and8 insertf128 cat; split <;> rfl
theorem or8_cat (a b c d : V4) : or8 (insertf128 a b) (insertf128 c d) = insertf128 (fun l => a l ||| c l) (fun l => b l ||| d l) := by
  funext i; unfold or8 insertf128 cat; split <;> rfl
theorem srli8_cat (a b : V4) (n : Nat) : srli8 (insertf128 a b) n = insertf128 (fun l => a l >>> n) (fun l => b l >>> n) := by
  funext i; unfold srli8 insertf128 cat; split <;> rfl
theorem slli8_cat (a b : V4) (n : Nat) : slli8 (insertf128 a b) n = insertf128 (fun l => a l <<< n) (fun l => b l <<< n) := by
  funext i; unfold slli8 insertf128 cat; split <;> rfl
theorem set1_cat (x : BitVec 32) : set1 x = insertf128 (fun _ => x) (fun _ => x) := by
  funext i; unfold set1 insertf128 cat; split <;> rfl
theorem extractf128_cat0 (a b : V4) : extractf128 (insertf128 a b) 0 = a := by
  funext c; unfold extractf128 insertf128 cat; fin_cases c <;> rfl
theorem extractf128_cat1 (a b : V4) : extractf128 (insertf128 a b) 1 = b := by
  funext c; unfold extractf128 insertf128 cat; fin_cases c <;> rfl

/-! ### Bytes and 16-bit values in 32-bit elements -/

theorem byte0_eq (b3 b2 b1 b0 : BitVec 8) : ((b3 ++ b2 ++ b1 ++ b0 : BitVec 32) <<< 24) >>> 24 = b0.setWidth 32 := by
  apply BitVec.eq_of_getLsbD_eq; intro i hi
  simp only [BitVec.getLsbD_ushiftRight, BitVec.getLsbD_shiftLeft, BitVec.getLsbD_append, BitVec.getLsbD_setWidth]
  interval_cases i <;> simp
theorem byte1_eq (b3 b2 b1 b0 : BitVec 8) : ((b3 ++ b2 ++ b1 ++ b0 : BitVec 32) <<< 16) >>> 24 = b1.setWidth 32 := by
  apply BitVec.eq_of_getLsbD_eq; intro i hi
  simp only [BitVec.getLsbD_ushiftRight, BitVec.getLsbD_shiftLeft, BitVec.getLsbD_append, BitVec.getLsbD_setWidth]
  interval_cases i <;> simp
theorem byte2_eq (b3 b2 b1 b0 : BitVec 8) : ((b3 ++ b2 ++ b1 ++ b0 : BitVec 32) <<< 8) >>> 24 = b2.setWidth 32 := by
  apply BitVec.eq_of_getLsbD_eq; intro i hi
  simp only [BitVec.getLsbD_ushiftRight, BitVec.getLsbD_shiftLeft, BitVec.getLsbD_append, BitVec.getLsbD_setWidth]
  interval_cases i <;> simp
theorem byte3_eq (b3 b2 b1 b0 : BitVec 8) : (b3 ++ b2 ++ b1 ++ b0 : BitVec 32) >>> 24 = b3.setWidth 32 := by
  apply BitVec.eq_of_getLsbD_eq; intro i hi
  simp only [BitVec.getLsbD_ushiftRight, BitVec.getLsbD_shiftLeft, BitVec.getLsbD_append, BitVec.getLsbD_setWidth]
  interval_cases i <;> simp
theorem half0_eq (b1 b0 : BitVec 16) : ((b1 ++ b0 : BitVec 32) <<< 16) >>> 16 = b0.setWidth 32 := by
  apply BitVec.eq_of_getLsbD_eq; intro i hi
  simp only [BitVec.getLsbD_ushiftRight, BitVec.getLsbD_shiftLeft, BitVec.getLsbD_append, BitVec.getLsbD_setWidth]
  interval_cases i <;> simp
theorem half1_eq (b1 b0 : BitVec 16) : (b1 ++ b0 : BitVec 32) >>> 16 = b1.setWidth 32 := by
  apply BitVec.eq_of_getLsbD_eq; intro i hi
  simp only [BitVec.getLsbD_ushiftRight, BitVec.getLsbD_shiftLeft, BitVec.getLsbD_append, BitVec.getLsbD_setWidth]
  interval_cases i <;> simp

theorem toInt_of_lt {w : Nat} (x : BitVec w) (h : 2 * x.toNat < 2 ^ w) : x.toInt = x.toNat := by
  rw [BitVec.toInt_eq_toNat_cond, if_pos h]

theorem satU_byte (b : BitVec 8) : satU8 (satU16 (b.setWidth 32)) = b := by
  have hb := b.isLt
  have e1 : (b.setWidth 32).toNat = b.toNat := by simp; omega
  have h1 : satU16 (b.setWidth 32) = b.setWidth 16 := by
    unfold satU16
    rw [toInt_of_lt _ (by rw [e1]; omega), e1, if_neg (by omega), if_neg (by omega)]
    apply BitVec.eq_of_toNat_eq
    simp
  have e2 : (b.setWidth 16).toNat = b.toNat := by simp; omega
  rw [h1]
  unfold satU8
  rw [toInt_of_lt _ (by rw [e2]; omega), e2, if_neg (by omega), if_neg (by omega)]
  apply BitVec.eq_of_toNat_eq
  simp

theorem satS_small (x : BitVec 16) (h : x.toNat < 32768) : satS16 (x.setWidth 32) = x := by
  have hb := x.isLt
  have e1 : (x.setWidth 32).toNat = x.toNat := by simp; omega
  unfold satS16
  rw [toInt_of_lt _ (by rw [e1]; omega), e1, if_neg (by omega), if_neg (by omega)]
  apply BitVec.eq_of_toNat_eq
  simp

end Saber.X4
