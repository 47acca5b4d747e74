import Verif.Model.M0.Bench
import Mathlib.Data.List.GetD
import Mathlib.Tactic.Linarith
import Mathlib.Tactic.NormNum
import Mathlib.Tactic.Ring
import Mathlib.Data.BitVec
/-!
# Proofs about the measurement program
-/
namespace Saber.M0
open Spec.KatFile (str decimal)
open Spec.Bench Spec.Hex

/-! ## Transmitter -/

/-- All bytes that were accepted, in order. -/
def Uart.sent (u : Uart) : List Byte := u.line ++ u.fifo

theorem sent_transmit (pace : Nat → Nat) (u : Uart) : (transmit pace u).sent = u.sent := by
  simp [Uart.sent, transmit]

theorem put_ok (pace : Nat → Nat) (u : Uart) (b : Byte) (h : u.fifo.length < 32) :
    (put pace u b).sent = u.sent ++ [b] ∧ (put pace u b).fifo.length ≤ u.fifo.length + 1 := by
  have hl : (transmit pace u).fifo.length ≤ u.fifo.length := by simp [transmit]
  unfold put
  simp only []
  rw [if_pos (by omega)]
  refine ⟨?_, ?_⟩
  · have := sent_transmit pace u
    simp only [Uart.sent] at this ⊢
    rw [← List.append_assoc, this]
  · simp only [List.length_append, List.length_singleton]; omega

/-- Several bytes. -/
def puts (pace : Nat → Nat) (u : Uart) (bs : List Byte) : Uart := bs.foldl (put pace) u

theorem puts_ok (pace : Nat → Nat) : ∀ (bs : List Byte) (u : Uart), u.fifo.length + bs.length ≤ 32 →
    (puts pace u bs).sent = u.sent ++ bs ∧ (puts pace u bs).fifo.length ≤ u.fifo.length + bs.length := by
  intro bs
  induction bs with
  | nil => intro u _; simp [puts]
  | cons b bs ih =>
    intro u h
    simp only [List.length_cons] at h
    obtain ⟨h1, h2⟩ := put_ok pace u b (by omega)
    obtain ⟨h3, h4⟩ := ih (put pace u b) (by omega)
    refine ⟨?_, ?_⟩
    · show (puts pace (put pace u b) bs).sent = _
      rw [h3, h1]; simp
    · show (puts pace (put pace u b) bs).fifo.length ≤ _
      simp only [List.length_cons]; omega

/-- When the hardware sends nothing meanwhile: the queue takes what fits. -/
theorem puts_slow : ∀ (bs : List Byte) (u : Uart), u.fifo.length ≤ 32 →
    (puts (fun _ => 0) u bs).sent = u.sent ++ bs.take (32 - u.fifo.length) := by
  intro bs
  induction bs with
  | nil => intro u _; simp [puts]
  | cons b bs ih =>
    intro u h
    show (puts (fun _ => 0) (put (fun _ => 0) u b) bs).sent = _
    by_cases hf : u.fifo.length < 32
    · have hp : (put (fun _ => 0) u b).fifo = u.fifo ++ [b] := by simp [put, transmit, hf]
      rw [ih _ (by rw [hp]; simp; omega), (put_ok _ u b hf).1, hp]
      have : 32 - u.fifo.length = (32 - (u.fifo.length + 1)) + 1 := by omega
      rw [this]
      simp
    · have hp : put (fun _ => 0) u b = { u with time := u.time + 1 } := by simp [put, transmit, hf]
      rw [hp, ih { u with time := u.time + 1 } h]
      have : 32 - u.fifo.length = 0 := by omega
      simp [this, Uart.sent]

theorem writeLoop_eq (pace : Nat → Nat) (s : List Byte) : ∀ (k i : Nat) (u : Uart), i + k ≤ s.length →
    writeLoop pace s k i u = .ok (puts pace u ((s.drop i).take k)) := by
  intro k
  induction k with
  | zero => intro i u _; simp [writeLoop, puts, pure, Except.pure]
  | succ k ih =>
    intro i u h
    have hi : i < s.length := by omega
    unfold writeLoop
    rw [show rd s i = .ok s[i] by simp [rd, hi]]
    show writeLoop pace s k (i + 1) _ = _
    rw [ih _ _ (by omega)]
    rw [List.drop_eq_getElem_cons hi, List.take_succ_cons]
    rfl

theorem digitChar_eq (ui : BitVec 32) (i : Nat) :
    digitChar (((ui >>> (4 * i)) &&& 0x0F#32).setWidth 8) = upper (ui.toNat / 16 ^ i % 16) := by
  have hj : (((ui >>> (4 * i)) &&& 0x0F#32).setWidth 8).toNat = ui.toNat / 16 ^ i % 16 := by
    simp only [BitVec.toNat_setWidth, BitVec.toNat_and, BitVec.toNat_ushiftRight, BitVec.toNat_ofNat]
    rw [show 15 % 2 ^ 32 = 2 ^ 4 - 1 from rfl, Nat.and_two_pow_sub_one_eq_mod, Nat.shiftRight_eq_div_pow, Nat.pow_mul]
    have : ui.toNat / (2 ^ 4) ^ i % 2 ^ 4 < 16 := Nat.mod_lt _ (by decide)
    norm_num at this ⊢
    omega
  have hlt : ui.toNat / 16 ^ i % 16 < 16 := Nat.mod_lt _ (by decide)
  generalize ((ui >>> (4 * i)) &&& 0x0F#32).setWidth 8 = j at hj
  rw [← hj] at hlt ⊢
  unfold digitChar upper
  split
  · apply BitVec.eq_of_toNat_eq; simp
  · apply BitVec.eq_of_toNat_eq
    have h65 : BitVec.toNat (65 : Byte) = 65 := rfl
    have h10 : BitVec.toNat (10 : Byte) = 10 := rfl
    simp only [BitVec.toNat_sub, BitVec.toNat_add, BitVec.toNat_ofNat, h65, h10]
    omega

theorem sendDigits_eq (pace : Nat → Nat) (ui : BitVec 32) : ∀ (k : Nat) (u : Uart),
    sendDigits pace ui k u = puts pace u (hex k ui.toNat) := by
  intro k
  induction k with
  | zero => intro u; rfl
  | succ k ih =>
    intro u
    unfold sendDigits
    rw [ih, digitChar_eq]
    unfold hex
    rw [List.range_succ_eq_map, List.map_cons, List.map_map]
    show puts _ _ _ = puts pace (put pace u _) _
    rw [show k + 1 - 1 - 0 = k by omega]
    congr 1
    apply List.map_congr_left
    intro i _
    simp only [Function.comp, Nat.succ_eq_add_one]
    rw [show k + 1 - 1 - (i + 1) = k - 1 - i by omega]

theorem puts_append (pace : Nat → Nat) (u : Uart) (a b : List Byte) : puts pace (puts pace u a) b = puts pace u (a ++ b) := by
  simp [puts]

theorem str0x : str "0x" = [48, 120] := by decide +kernel
theorem strCrLf : str "\r\n" = [13, 10] := by decide +kernel

theorem SendAddr_eq (pace : Nat → Nat) (ui : BitVec 32) (u : Uart) :
    UART_SendAddr pace ui u = puts pace u (hexLine ui.toNat) := by
  unfold UART_SendAddr hexLine
  simp only [sendDigits_eq]
  rw [str0x, strCrLf, ← puts_append, ← puts_append]
  rfl

theorem SendTrace_eq (pace : Nat → Nat) (s : List Byte) (len : Byte) (ui : BitVec 32) (u : Uart) (h : len.toNat ≤ s.length) :
    UART_SendTrace pace s len ui u = .ok (puts pace (waitEmpty u) (s.take len.toNat ++ hexLine ui.toNat)) := by
  unfold UART_SendTrace UART_Write
  simp only []
  rw [writeLoop_eq _ _ _ _ _ (by omega)]
  show Except.ok _ = _
  rw [SendAddr_eq, puts_append]
  rfl

theorem SendWord_eq (pace : Nat → Nat) (w : BitVec 16) (u : Uart) :
    UART_SendWord pace w u = puts pace (waitEmpty u) (str "0x" ++ hex 4 w.toNat ++ str "\r\n") := by
  unfold UART_SendWord
  simp only [sendDigits_eq]
  rw [str0x, strCrLf, ← puts_append, ← puts_append]
  have : (w.setWidth 32).toNat = w.toNat := by simp; omega
  rw [this]
  rfl

theorem length_hex (k n : Nat) : (hex k n).length = k := by simp [hex]
theorem length_hexLine (n : Nat) : (hexLine n).length = 12 := by simp [hexLine, length_hex, str0x, strCrLf]

theorem sent_waitEmpty (u : Uart) : (waitEmpty u).sent = u.sent := by simp [Uart.sent, waitEmpty]

theorem readLoop_ok : ∀ (rx s p : List Byte) (i : Byte), i.toNat = p.length → p.length + rx.length ≤ s.length →
    p.length + rx.length < 256 → s.take p.length = p →
    readLoop rx i s = .ok (BitVec.ofNat 8 (p.length + rx.length), p ++ rx ++ s.drop (p.length + rx.length)) := by
  intro rx
  induction rx with
  | nil =>
    intro s p i hi hl _ hp
    have h1 : i = BitVec.ofNat 8 p.length := by
      apply BitVec.eq_of_toNat_eq; rw [hi]; simp; omega
    have h2 : s = p ++ s.drop p.length := by conv_lhs => rw [← List.take_append_drop p.length s, hp]
    simp only [List.length_nil, Nat.add_zero, List.append_nil, readLoop, h1]
    rw [← h2]
    rfl
  | cons b rx ih =>
    intro s p i hi hl hb hp
    simp only [List.length_cons] at hl hb
    unfold readLoop
    rw [show wr s i.toNat b = .ok (s.set p.length b) by rw [hi]; unfold wr; rw [if_pos (by omega)]]
    show readLoop rx (i + 1) (s.set p.length b) = _
    have h2 : s = p ++ s.drop p.length := by conv_lhs => rw [← List.take_append_drop p.length s, hp]
    have h3 : s.set p.length b = (p ++ [b]) ++ s.drop (p.length + 1) := by
      rw [List.set_eq_take_append_cons_drop, if_pos (by omega), hp]
      simp
    rw [ih (s.set p.length b) (p ++ [b]) (i + 1)]
    · simp only [List.length_append, List.length_cons, List.length_nil, List.append_assoc, List.cons_append, List.nil_append]
      rw [List.drop_set_of_lt (by omega)]
      simp only [show p.length + (0 + 1) + rx.length = p.length + (rx.length + 1) by omega]
    · simp [BitVec.toNat_add, hi]; omega
    · simp; omega
    · simp; omega
    · rw [h3]; exact List.take_left

theorem readLoop_oob : ∀ (rx s : List Byte) (i : Byte), s.length < 256 → i.toNat ≤ s.length → s.length < i.toNat + rx.length →
    readLoop rx i s = .error .oob := by
  intro rx
  induction rx with
  | nil => intro s i _ _ h; simp at h; omega
  | cons b rx ih =>
    intro s i hs hi h
    simp only [List.length_cons] at h
    unfold readLoop
    by_cases hlt : i.toNat < s.length
    · rw [show wr s i.toNat b = .ok (s.set i.toNat b) by unfold wr; rw [if_pos hlt]]
      show readLoop rx (i + 1) _ = _
      have hi1 : (i + 1).toNat = i.toNat + 1 := by simp [BitVec.toNat_add]; omega
      exact ih _ _ (by simpa using hs) (by rw [hi1]; simp; omega) (by rw [hi1]; simp; omega)
    · rw [show wr s i.toNat b = .error .oob by unfold wr; rw [if_neg hlt]]
      rfl

/-! ## Stack -/

theorem canaryLoop_apply (c : Byte) (lo : Nat) : ∀ (p : Nat) (m : Mem) (x : Nat),
    canaryLoop c lo p m x = if lo ≤ x ∧ x ≤ p then c else m x := by
  intro p
  induction p with
  | zero =>
    intro m x
    unfold canaryLoop
    by_cases h : 0 ≥ lo
    · rw [if_pos h]
      by_cases hx : x = 0
      · rw [if_pos hx, if_pos (by omega)]
      · rw [if_neg hx, if_neg (by omega)]
    · rw [if_neg h, if_neg (by omega)]
  | succ p ih =>
    intro m x
    unfold canaryLoop
    by_cases h : p + 1 ≥ lo
    · rw [if_pos h, ih]
      by_cases hx : lo ≤ x ∧ x ≤ p
      · rw [if_pos hx, if_pos (by omega)]
      · rw [if_neg hx]
        by_cases h1 : x = p + 1
        · simp only [h1]; simp only [if_true]; rw [if_pos (by omega)]
        · simp only [h1, if_false]; rw [if_neg (by omega)]
    · rw [if_neg h, if_neg (by omega)]

theorem WRITE_CANARY_apply (c : Byte) (X : Nat) (m : Mem) (x : Nat) :
    WRITE_CANARY c X m x = if X - MAXSTACK ≤ x ∧ x ≤ X then c else m x := canaryLoop_apply _ _ _ _ _

theorem countLoop_spec (c : Byte) (m : Mem) : ∀ (k p : Nat) (n : BitVec 32), ∃ j ≤ k, countLoop c m k p n = n + BitVec.ofNat 32 j ∧
    (∀ x, p ≤ x → x < p + j → m x = c) ∧ (j < k → m (p + j) ≠ c) := by
  intro k
  induction k with
  | zero => intro p n; exact ⟨0, Nat.le_refl _, by simp [countLoop], fun x h1 h2 => by omega, fun h => by omega⟩
  | succ k ih =>
    intro p n
    unfold countLoop
    by_cases h : m p = c
    · rw [if_pos h]
      obtain ⟨j, hj, he, h1, h2⟩ := ih (p + 1) (n + 1)
      refine ⟨j + 1, by omega, ?_, fun x hx hx' => ?_, fun hlt => ?_⟩
      · rw [he, BitVec.add_assoc]
        congr 1
        apply BitVec.eq_of_toNat_eq
        simp [BitVec.toNat_add, Nat.add_comm]
      · by_cases hp : x = p
        · rw [hp]; exact h
        · exact h1 x (by omega) (by omega)
      · have := h2 (by omega)
        rwa [show p + (j + 1) = p + 1 + j by omega]
    · rw [if_neg h]
      exact ⟨0, by omega, by simp, fun x h1 h2 => by omega, fun _ => by simpa using h⟩

theorem lastWrite_cons (p : Nat × Byte) (w : Writes) (x : Nat) :
    lastWrite (p :: w) x = (lastWrite w x).or (if p.1 = x then some p.2 else none) := by
  unfold lastWrite
  rw [List.reverse_cons, List.find?_append]
  cases h : w.reverse.find? (fun p => decide (p.1 = x)) with
  | some q => simp
  | none =>
    by_cases hp : p.1 = x
    · simp [hp]
    · simp [hp]

theorem perform_apply : ∀ (w : Writes) (m : Mem) (x : Nat), perform w m x = (lastWrite w x).getD (m x) := by
  intro w
  induction w with
  | nil => intro m x; rfl
  | cons p w ih =>
    intro m x
    show perform w _ x = _
    rw [ih, lastWrite_cons]
    by_cases hp : x = p.1
    · subst hp; cases lastWrite w p.1 <;> simp
    · have : ¬ p.1 = x := fun h => hp h.symm
      cases lastWrite w x <;> simp [hp, this]

theorem lastWrite_mem {w : Writes} {x : Nat} {v : Byte} (h : lastWrite w x = some v) : (x, v) ∈ w := by
  unfold lastWrite at h
  rw [Option.map_eq_some_iff] at h
  obtain ⟨q, h1, h2⟩ := h
  have hq := List.mem_of_find?_eq_some h1
  have := List.find?_some h1
  simp at this
  rw [List.mem_reverse] at hq
  rw [← this, ← h2]; exact hq

theorem lastWrite_isSome {w : Writes} {x : Nat} {v : Byte} (h : (x, v) ∈ w) : ∃ v', lastWrite w x = some v' := by
  unfold lastWrite
  have : (w.reverse.find? fun p => decide (p.1 = x)).isSome := by
    rw [List.find?_isSome]
    exact ⟨(x, v), by simpa using h, by simp⟩
  obtain ⟨q, hq⟩ := Option.isSome_iff_exists.mp this
  exact ⟨q.2, by rw [hq]; rfl⟩

/-- The number that is reported, and what it means in terms of the memory after the call. -/
theorem measureStack_spec (a : Nat) (w : Writes) (m : Mem) (ha : MAXSTACK ≤ a) : ∃ r ≤ MAXSTACK,
    (measureStack a w m).1 = BitVec.ofNat 32 r ∧
    (∀ x v, lastWrite w x = some v → a - MAXSTACK ≤ x → x < a → v ≠ 42 → a - x ≤ r) ∧
    (0 < r → ∃ v, lastWrite w (a - r) = some v ∧ v ≠ 42) := by
  obtain ⟨j, hj, he, h1, h2⟩ := countLoop_spec 42 (perform w (WRITE_CANARY 42 a m)) (a - (a - MAXSTACK)) (a - MAXSTACK) 0
  have hk : a - (a - MAXSTACK) = MAXSTACK := by omega
  rw [hk] at hj he h2
  have hM : MAXSTACK = 0x2880 := rfl
  refine ⟨MAXSTACK - j, by omega, ?_, fun x v hx hlo hxa hv => ?_, fun hr => ?_⟩
  · show BitVec.ofNat 32 MAXSTACK - stack_count 42 a _ = _
    unfold stack_count
    simp only [hk]
    rw [he]
    apply BitVec.eq_of_toNat_eq
    have h0 : BitVec.toNat (0 : BitVec 32) = 0 := rfl
    simp only [BitVec.toNat_sub, BitVec.toNat_add, BitVec.toNat_ofNat, h0]
    omega
  · by_contra hcon
    have := h1 x hlo (by omega)
    rw [perform_apply, hx] at this
    exact hv this
  · have hne := h2 (by omega)
    rw [show a - MAXSTACK + j = a - (MAXSTACK - j) by omega, perform_apply, WRITE_CANARY_apply] at hne
    rw [if_pos (by omega)] at hne
    cases hl : lastWrite w (a - (MAXSTACK - j)) with
    | none => rw [hl] at hne; exact absurd rfl hne
    | some v => exact ⟨v, rfl, by rw [hl] at hne; exact hne⟩

/-! ## Timer -/

/-- Number of clocks, out of the first `t`, at whose end an interrupt is waiting. -/
def waited (serve : Nat → Bool) (s : SysTick) (t : Nat) : Nat :=
  ((List.range t).filter fun i => (elapse serve (i + 1) s).pending).length

theorem waited_succ (serve : Nat → Bool) (s : SysTick) (t : Nat) :
    waited serve s (t + 1) = waited serve s t + if (elapse serve (t + 1) s).pending then 1 else 0 := by
  unfold waited
  rw [List.range_succ, List.filter_append, List.length_append]
  by_cases h : (elapse serve (t + 1) s).pending
  · simp [h]
  · simp [h]

theorem RVR_gt : 1 < RVR := by decide

section
attribute [local irreducible] RVR

/-- The state after `t` clocks from a start with the counter at 0 and no interrupt waiting. -/
theorem elapse_inv (serve : Nat → Bool) (s : SysTick) (he : s.enabled = true) (hc : s.cvr = 0) (hp : s.pending = false) (t : Nat) :
    (elapse serve t s).enabled = true ∧ (elapse serve t s).calibration_value = s.calibration_value ∧ (elapse serve t s).cvr ≤ RVR ∧
    ∃ n, (elapse serve t s).timer_overflow = s.timer_overflow + BitVec.ofNat 32 n ∧
    ((elapse serve t s).pending = false →
      t = n * (RVR + 1) + waited serve s t + if (elapse serve t s).cvr = 0 then 0 else RVR + 1 - (elapse serve t s).cvr) ∧
    ((elapse serve t s).pending = true → t + 1 = (n + 1) * (RVR + 1) + waited serve s t) := by
  have hR := RVR_gt
  induction t with
  | zero => exact ⟨he, rfl, by simp [elapse, hc], 0, by simp [elapse], by simp [elapse, hc, waited], by simp [elapse, hp]⟩
  | succ t ih =>
    obtain ⟨h1, h2, h3, n, h4, h5, h6⟩ := ih
    rw [waited_succ]
    have hst : elapse serve (t + 1) s = clock (serve t) (elapse serve t s) := rfl
    rw [hst]
    generalize elapse serve t s = e at *
    generalize waited serve s t = W at *
    obtain ⟨en, cvr, pe, ov, cal⟩ := e
    simp only at h1 h2 h3 h4 h5 h6
    subst h1
    have hmul : (n + 1) * (RVR + 1) = n * (RVR + 1) + (RVR + 1) := by ring
    have hmul2 : (n + 1 + 1) * (RVR + 1) = n * (RVR + 1) + (RVR + 1) + (RVR + 1) := by ring
    have hadd : ov + 1 = s.timer_overflow + BitVec.ofNat 32 (n + 1) := by
      rw [h4, BitVec.add_assoc]
      congr 1
      apply BitVec.eq_of_toNat_eq
      simp [BitVec.toNat_add]
    cases pe with
    | true =>
      have h6 := h6 rfl
      cases hs : serve t with
      | true => exact ⟨rfl, h2, Nat.zero_le _, n + 1, hadd, fun _ => by simp [clock, SysTick_Handler]; omega, fun h => by simp [clock, SysTick_Handler] at h⟩
      | false =>
        refine ⟨rfl, h2, ?_, n, h4, fun h => by simp [clock] at h, fun _ => by simp [clock]; omega⟩
        simp only [clock, Bool.false_and, if_true]
        by_cases hcv : cvr = 0
        · simp [hcv]
        · simp [hcv]; omega
    | false =>
      have h5 := h5 rfl
      by_cases h1 : cvr = 1
      · subst h1
        simp at h5
        cases hs : serve t with
        | true => exact ⟨rfl, h2, Nat.zero_le _, n + 1, hadd, fun _ => by simp [clock, SysTick_Handler]; omega, fun h => by simp [clock, SysTick_Handler] at h⟩
        | false => exact ⟨rfl, h2, by simp [clock], n, h4, fun h => by simp [clock] at h, fun _ => by simp [clock]; omega⟩
      · by_cases h0 : cvr = 0
        · subst h0
          simp at h5
          refine ⟨by simp [clock], ?_, ?_, n, ?_, fun _ => ?_, fun h => ?_⟩
          · simpa [clock] using h2
          · simp [clock]
          · simpa [clock] using h4
          · have hne : RVR ≠ 0 := by omega
            simp [clock, hne]; omega
          · simp [clock] at h
        · rw [if_neg h0] at h5
          refine ⟨?_, ?_, ?_, n, ?_, fun _ => ?_, fun h => ?_⟩
          · simp [clock, h1]
          · simpa [clock, h1] using h2
          · simp [clock, h1, h0]; omega
          · simpa [clock, h1] using h4
          · simp only [clock, h1, h0, if_true, if_false, decide_false, Bool.or_false, Bool.and_false]
            have : ¬ cvr - 1 = 0 := by omega
            simp [this]; omega
          · simp [clock, h1] at h

end

theorem overflowLoop_eq (y : BitVec 32) : ∀ (k : Nat) (x : BitVec 32), overflowLoop y k x = x + BitVec.ofNat 32 k * y := by
  intro k
  induction k with
  | zero => intro x; simp [overflowLoop]
  | succ k ih =>
    intro x
    rw [overflowLoop, ih, BitVec.ofNat_add, BitVec.add_mul, BitVec.add_assoc, BitVec.add_comm y, BitVec.one_mul]

theorem end_eq (late : Bool) (s : SysTick) (h : (late && s.pending) = false) :
    (end_tick_count late s).1 = BitVec.ofNat 32 RVR - BitVec.ofNat 32 s.cvr + s.timer_overflow * BitVec.ofNat 32 RVR - s.calibration_value := by
  unfold end_tick_count
  simp only [overflowLoop_eq, h]
  generalize BitVec.ofNat 32 RVR = y
  simp

/-! ## Host -/

theorem hex_succ (k n : Nat) : hex (k + 1) n = upper (n / 16 ^ k % 16) :: hex k n := by
  unfold hex
  rw [List.range_succ_eq_map, List.map_cons, List.map_map]
  congr 1
  apply List.map_congr_left
  intro i _
  simp only [Function.comp, Nat.succ_eq_add_one]
  rw [show k + 1 - 1 - (i + 1) = k - 1 - i by omega]

theorem upper_facts : ∀ d < 16, isHexDigit (upper d) = true ∧ hexVal (upper d) = d ∧ upper d ≠ 10 := by decide +kernel

theorem pyInt16_hex : ∀ (k n acc : Nat), (hex k n).foldl (fun n b => 16 * n + hexVal b) acc = acc * 16 ^ k + n % 16 ^ k := by
  intro k
  induction k with
  | zero => intro n acc; simp [hex, Nat.mod_one]
  | succ k ih =>
    intro n acc
    rw [hex_succ, List.foldl_cons, ih, (upper_facts _ (Nat.mod_lt _ (by decide))).2.1]
    have h1 : n % 16 ^ (k + 1) = n % 16 ^ k + 16 ^ k * (n / 16 ^ k % 16) := by
      rw [Nat.pow_succ, Nat.mod_mul]
    rw [h1, Nat.pow_succ]
    ring

theorem hex_all (k n : Nat) : ∀ b ∈ hex k n, isHexDigit b = true ∧ b ≠ 10 := by
  intro b hb
  unfold hex at hb
  rw [List.mem_map] at hb
  obtain ⟨i, _, rfl⟩ := hb
  have := upper_facts (n / 16 ^ (k - 1 - i) % 16) (Nat.mod_lt _ (by decide))
  exact ⟨this.1, this.2.2⟩

theorem readline_append : ∀ (l s : List Byte), (∀ b ∈ l, b ≠ 10) → readline (l ++ 10 :: s) = some (l ++ [10], s) := by
  intro l
  induction l with
  | nil => intro s _; simp [readline]
  | cons b l ih =>
    intro s h
    have hb : b ≠ 10 := h b (by simp)
    rw [List.cons_append, readline, if_neg hb, ih s fun c hc => h c (by simp [hc])]
    rfl

theorem findHex_skip : ∀ (l s : List Byte), (∀ b ∈ l, b ≠ 48) → 2 ≤ s.length → findHex (l ++ s) = findHex s := by
  intro l
  induction l with
  | nil => intro s _ _; rfl
  | cons b l ih =>
    intro s h hs
    have hb : b ≠ 48 := h b (by simp)
    rw [← ih s (fun c hc => h c (by simp [hc])) hs]
    obtain ⟨c, d, t, ht⟩ : ∃ c d t, l ++ s = c :: d :: t := by
      cases hls : l ++ s with
      | nil => have := congrArg List.length hls; rw [List.length_append, List.length_nil] at this; omega
      | cons c u =>
        cases u with
        | nil => have := congrArg List.length hls; rw [List.length_append, List.length_singleton] at this; omega
        | cons d t => exact ⟨c, d, t, rfl⟩
    rw [List.cons_append, ht, findHex, if_neg (fun hc => hb hc.1)]

theorem findHex_hexLine (n : Nat) : findHex (hexLine n) = some (hex 8 n) := by
  have h := hex_succ 7 n
  have hd := (hex_all 8 n)
  unfold hexLine
  rw [str0x, strCrLf]
  rw [h] at hd ⊢
  have h0 := (hd _ List.mem_cons_self).1
  show findHex (48 :: 120 :: _ :: (hex 7 n ++ [13, 10])) = _
  rw [findHex, if_pos ⟨rfl, Or.inl rfl, h0⟩]
  congr 2
  rw [List.takeWhile_append_of_pos (fun b hb => (hd b (by simp [hb])).1)]
  simp [isHexDigit]

/-- One line of the board at the host. -/
theorem evalLine_eq (before after : String) (l s : List Byte) (n : Nat) (hl : ∀ b ∈ l, b ≠ 10 ∧ b ≠ 48) (hn : n < 2 ^ 32) :
    evalLine before after (l ++ hexLine n ++ s) = some (str before ++ decimal n ++ str after, s) := by
  unfold evalLine
  have e1 : l ++ hexLine n ++ s = (l ++ (str "0x" ++ hex 8 n ++ [13])) ++ 10 :: s := by
    simp [hexLine, strCrLf]
  have e2 : (l ++ (str "0x" ++ hex 8 n ++ [13])) ++ [10] = l ++ hexLine n := by
    simp [hexLine, strCrLf]
  rw [e1, readline_append, e2]
  · show (findHex (l ++ hexLine n)).bind _ = _
    rw [findHex_skip _ _ (fun b hb => (hl b hb).2) (by rw [length_hexLine]; decide), findHex_hexLine]
    show some (str before ++ decimal (pyInt16 (hex 8 n)) ++ str after, s) = _
    unfold pyInt16
    rw [pyInt16_hex]
    have : n % 16 ^ 8 = n := Nat.mod_eq_of_lt (by norm_num; omega)
    rw [this]; simp
  · intro b hb
    simp only [List.mem_append] at hb
    rcases hb with hb | (hb | hb) | hb
    · exact (hl b hb).1
    · rw [str0x] at hb; simp at hb; rcases hb with rfl | rfl <;> decide
    · exact (hex_all 8 n b hb).2
    · simp at hb; subst hb; decide

end Saber.M0
