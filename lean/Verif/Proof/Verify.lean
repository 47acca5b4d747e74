import Verif.Model.Verify
import Mathlib.Data.List.GetD
/-!
# `verify` and `cmov`
-/
namespace Saber

theorem verify_loop_w {w : Nat} (hw : 8 ≤ w) (a : List Byte) (aOff : Nat) (b : List Byte) (bOff len : Nat)
    (ha : aOff + len ≤ a.length) (hb : bOff + len ≤ b.length) :
    Ok (loop len (0 : BitVec w) fun i r => do
      let x ← rd a (aOff + i)
      let y ← rd b (bOff + i)
      pure (r ||| (x ^^^ y).setWidth w))
    fun r => r.toNat < 256 ∧ (r = 0 ↔ ∀ i, i < len → a.getD (aOff + i) 0 = b.getD (bOff + i) 0) := by
  refine loop_inv (fun n (r : BitVec w) => r.toNat < 256 ∧ (r = 0 ↔ ∀ i, i < n → a.getD (aOff + i) 0 = b.getD (bOff + i) 0)) ?_ ?_
  · simp
  · intro n r hn h
    rw [rd_ok 0 (by omega), ok_bind, rd_ok 0 (by omega), ok_bind]
    refine Ok.pure ⟨?_, ?_⟩
    · rw [BitVec.toNat_or, BitVec.toNat_setWidth]
      apply Nat.or_lt_two_pow (n := 8) h.1
      exact Nat.lt_of_le_of_lt (Nat.mod_le _ _) (a.getD (aOff + n) 0 ^^^ b.getD (bOff + n) 0).isLt
    · have key : (r ||| (a.getD (aOff + n) 0 ^^^ b.getD (bOff + n) 0).setWidth w) = 0
          ↔ r = 0 ∧ a.getD (aOff + n) 0 = b.getD (bOff + n) 0 := by
        generalize a.getD (aOff + n) 0 = x
        generalize b.getD (bOff + n) 0 = y
        constructor
        · intro h
          have hb (j : Nat) : (r ||| (x ^^^ y).setWidth w).getLsbD j = false := by rw [h]; simp
          constructor
          · apply BitVec.eq_of_getLsbD_eq
            intro j hj
            have := hb j
            simp at this
            simp [this.1]
          · apply BitVec.eq_of_getLsbD_eq
            intro j hj
            have := hb j
            have h64 : j < w := by omega
            simp [hj, h64] at this
            simpa [hj] using this.2
        · rintro ⟨rfl, rfl⟩
          simp
      rw [key, h.2]
      constructor
      · rintro ⟨h1, h2⟩ i hi
        by_cases e : i = n
        · rw [e]; exact h2
        · exact h1 i (by omega)
      · intro h1
        exact ⟨fun i hi => h1 i (by omega), h1 n (by omega)⟩

theorem verify_loop (a : List Byte) (aOff : Nat) (b : List Byte) (bOff len : Nat)
    (ha : aOff + len ≤ a.length) (hb : bOff + len ≤ b.length) :
    Ok (loop len (0 : BitVec 64) fun i r => do
      let x ← rd a (aOff + i)
      let y ← rd b (bOff + i)
      pure (r ||| (x ^^^ y).setWidth 64))
    fun r => r.toNat < 256 ∧ (r = 0 ↔ ∀ i, i < len → a.getD (aOff + i) 0 = b.getD (bOff + i) 0) :=
  verify_loop_w (by omega) a aOff b bOff len ha hb

theorem take_drop_eq_iff (a : List Byte) (aOff : Nat) (b : List Byte) (bOff len : Nat)
    (ha : aOff + len ≤ a.length) (hb : bOff + len ≤ b.length) :
    (a.drop aOff).take len = (b.drop bOff).take len ↔ ∀ i, i < len → a.getD (aOff + i) 0 = b.getD (bOff + i) 0 := by
  rw [← map_getD_range a aOff len 0 ha, ← map_getD_range b bOff len 0 hb]
  rw [List.map_inj_left]
  simp

theorem neg_shift (r : BitVec 64) (h : r.toNat < 256) : (((-r) >>> 63).toNat : Int) = if r = 0 then 0 else 1 := by
  rw [BitVec.toNat_ushiftRight, BitVec.toNat_neg, Nat.shiftRight_eq_div_pow]
  by_cases e : r = 0
  · subst e; simp
  · have : r.toNat ≠ 0 := fun h => e (BitVec.eq_of_toNat_eq (by simpa using h))
    rw [if_neg e]; omega

theorem verify_ok (a : List Byte) (aOff : Nat) (b : List Byte) (bOff len : Nat)
    (ha : aOff + len ≤ a.length) (hb : bOff + len ≤ b.length) :
    verify a aOff b bOff len = .ok (if (a.drop aOff).take len = (b.drop bOff).take len then 0 else 1) := by
  unfold verify
  obtain ⟨r, h1, h2, h3⟩ := verify_loop a aOff b bOff len ha hb
  rw [h1, ok_bind]
  dsimp only
  rw [neg_shift r h2, pure_eq_ok]
  congr 1
  have h4 := take_drop_eq_iff _ _ _ _ _ ha hb
  by_cases e : r = 0
  · rw [if_pos e, if_pos (h4.2 (h3.1 e))]
  · rw [if_neg e, if_neg fun h => e (h3.2 (h4.1 h))]

theorem cmov_zero_ok (r : List Byte) (rOff : Nat) (x : List Byte) (xOff len : Nat)
    (hr : rOff + len ≤ r.length) (hx : xOff + len ≤ x.length) : cmov r rOff x xOff len 0 = .ok r := by
  unfold cmov
  have : BitVec.ofInt 8 (-(prom (0 : Byte))) = 0 := by decide
  rw [this]
  have h := loop_inv (n := len) (s := r) (body := fun i r => do
    let xi ← rd x (xOff + i)
    let ri ← rd r (rOff + i)
    wr r (rOff + i) (ri ^^^ ((0 : Byte) &&& (xi ^^^ ri)))) (fun _ r' => r' = r) rfl ?_
  · obtain ⟨r', h1, h2⟩ := h
    rw [h2] at h1
    exact h1
  · intro i r' hi h
    subst h
    rw [rd_ok 0 (by omega), ok_bind, rd_ok 0 (by omega), ok_bind, wr_ok (by omega)]
    refine Ok.pure ?_
    apply List.ext_getElem
    · simp
    · intro j h1 h2
      rw [List.getElem_set]
      split
      · rename_i e; subst e; simp [List.getElem?_eq_getElem h2]
      · rfl

theorem cmov_one_ok (r : List Byte) (rOff : Nat) (x : List Byte) (xOff len : Nat)
    (hr : rOff + len ≤ r.length) (hx : xOff + len ≤ x.length) :
    cmov r rOff x xOff len 1 = .ok (writeAt r rOff ((x.drop xOff).take len)) := by
  unfold cmov
  have : BitVec.ofInt 8 (-(prom (1 : Byte))) = BitVec.allOnes 8 := by decide
  rw [this, loop_blocks 1 (fun i => [x.getD (xOff + i) 0]) (fun _ => rfl) len r rOff (by omega),
    flatMap_singleton_eq_map, map_getD_range _ _ _ _ hx]
  intro i r' hi h
  rw [rd_ok 0 (by omega), ok_bind, rd_ok 0 (by omega), ok_bind]
  have e (u v : Byte) : v ^^^ (BitVec.allOnes 8 &&& (u ^^^ v)) = u := by
    rw [BitVec.allOnes_and, BitVec.xor_comm u v, ← BitVec.xor_assoc, BitVec.xor_self, BitVec.zero_xor]
  rw [e, Nat.one_mul]
  simp only [wrs]
  cases h : wr r' (rOff + i) (x.getD (xOff + i) 0) <;> rfl

end Saber
