import Verif.Model.Kat
import Verif.Spec.Hex
import Verif.Proof.Rng
/-! # Text input and output of the KAT program -/
namespace Saber
open Spec Spec.Hex Spec.Drbg

theorem fmRead_ok (n : Nat) : ∀ (line : List Byte) (i : Nat) (s : List Byte), i + n ≤ line.length →
    fmRead line i n s = .ok (if n ≤ s.length then some (writeAt line i (s.take n), s.drop n) else none) := by
  induction n with
  | zero => intro line i s _; simp [fmRead]
  | succ n ih =>
    intro line i s h
    cases s with
    | nil => simp [fmRead]
    | cons c s =>
      unfold fmRead
      rw [wr_ok (by omega), ok_bind, ih _ _ _ (by simp; omega)]
      simp only [List.length_cons, Nat.add_le_add_iff_right, List.take_succ_cons, List.drop_succ_cons]
      split
      · rename_i hn
        rw [set_eq_writeAt _ _ _ (by omega)]
        have e := writeAt_append line i [c] (s.take n) (by simp; omega)
        simp only [List.length_singleton, List.singleton_append] at e
        rw [e]
      · rfl

theorem strncmpEq_ok (line marker : List Byte) (len : Nat) (h1 : len ≤ line.length) (h2 : len ≤ marker.length) :
    strncmpEq line marker len = .ok (decide (line.take len = marker.take len)) := by
  unfold strncmpEq
  obtain ⟨r, hl, hr⟩ := loop_inv (n := len) (s := true) (body := fun i r => (do
      let a ← rd line i
      let b ← rd marker i
      pure (r && a == b) : CM Bool)) (fun i (r : Bool) => r = decide (line.take i = marker.take i)) (by simp)
    (by
      intro i r hi hr
      rw [rd_ok 0 (by omega), ok_bind, rd_ok 0 (by omega), ok_bind]
      refine ⟨_, rfl, ?_⟩
      rw [hr]
      show (_ && _) = _
      rw [Bool.eq_iff_iff]
      simp only [Bool.and_eq_true, decide_eq_true_eq, beq_iff_eq]
      rw [List.getD_eq_getElem _ _ (by omega), List.getD_eq_getElem _ _ (by omega), List.take_succ_eq_append_getElem (by omega),
        List.take_succ_eq_append_getElem (by omega)]
      constructor
      · rintro ⟨h, h'⟩; rw [h, h']
      · intro h
        have := List.append_inj h (by simp; omega)
        exact ⟨this.1, by simpa using this.2⟩)
  rw [hl, hr]

/-- The window moves by one character. -/
theorem fmShift_ok (line : List Byte) (len : Nat) (hlen : 0 < len) (h : len + 1 ≤ line.length) (c : Byte) :
    ∃ line', (do
        let line ← loop (len - 1) line fun i line => do
          let v ← rd line (i + 1)
          wr line i v
        let line ← wr line (len - 1) c
        wr line len 0 : CM (List Byte)) = .ok line' ∧ line'.length = line.length ∧ line'.take len = (line.take len).drop 1 ++ [c] := by
  obtain ⟨l1, hl, hlen1, hget⟩ := loop_inv (n := len - 1) (s := line) (body := fun i line => (do
          let v ← rd line (i + 1)
          wr line i v : CM (List Byte)))
    (fun i (l : List Byte) => l.length = line.length ∧ ∀ j, l.getD j 0 = if j < i then line.getD (j + 1) 0 else line.getD j 0)
    ⟨rfl, fun j => by simp⟩
    (by
      intro i l hi ⟨h1, h2⟩
      rw [rd_ok 0 (by omega), ok_bind, wr_ok (by omega)]
      refine ⟨_, rfl, by simp [h1], fun j => ?_⟩
      rw [getD_set]
      by_cases hj : i = j
      · subst hj
        rw [if_pos ⟨rfl, by omega⟩, if_pos (by omega), h2, if_neg (by omega)]
      · rw [if_neg (by omega), h2]
        by_cases hj2 : j < i
        · rw [if_pos hj2, if_pos (by omega)]
        · rw [if_neg hj2, if_neg (by omega)])
  rw [hl, ok_bind, wr_ok (by omega), ok_bind, wr_ok (by simp; omega)]
  refine ⟨_, rfl, by simp [hlen1], ?_⟩
  apply ext_getD 0
  · simp; omega
  · intro i hi
    have hi' : i < len := by simp at hi; omega
    rw [getD_take _ _ _ _ hi', getD_set, if_neg (by omega), getD_set]
    by_cases hlast : len - 1 = i
    · rw [if_pos ⟨hlast, by omega⟩, List.getD_append_right _ _ _ _ (by simp; omega)]
      have : i - ((line.take len).drop 1).length = 0 := by simp; omega
      rw [this]; rfl
    · rw [if_neg (by omega), hget, if_pos (by omega), List.getD_append _ _ _ _ (by simp; omega), getD_drop, getD_take _ _ _ _ (by omega),
        Nat.add_comm]

theorem after_short (marker s : List Byte) (h : s.length < marker.length) : after marker s = none := by
  induction s with
  | nil =>
    unfold after
    rw [if_neg (by intro h'; subst h'; simp at h)]
  | cons c s ih =>
    unfold after
    rw [if_neg (fun h' => by have := h'.length_le; omega), ih (by simp at h; omega)]

theorem prefix_window (marker w s : List Byte) (h : marker.length = w.length) : marker <+: w ++ s ↔ w = marker := by
  constructor
  · rintro ⟨t, ht⟩
    exact (List.append_inj ht h).1.symm
  · rintro rfl; exact List.prefix_append _ _

theorem fmLoop_ok (marker : List Byte) (len : Nat) (hlen : 0 < len) (hm : len ≤ marker.length) : ∀ (s line : List Byte),
    len + 1 ≤ line.length → fmLoop marker len line s =
      .ok (match after (marker.take len) (line.take len ++ s) with
        | some r => (1, r)
        | none => (0, [])) := by
  intro s
  have hml : (marker.take len).length = len := by simp; omega
  induction s with
  | nil =>
    intro line hl
    have hll : (line.take len).length = len := by simp; omega
    unfold fmLoop
    rw [strncmpEq_ok _ _ _ (by omega) hm, ok_bind, List.append_nil]
    by_cases h : line.take len = marker.take len
    · rw [if_pos (by simpa using h), h]
      cases hw : marker.take len with
      | nil => rw [hw] at hml; simp at hml; omega
      | cons a w => unfold after; rw [if_pos (List.prefix_refl _)]; simp
    · rw [if_neg (by simpa using h)]
      obtain ⟨l1, h1, _⟩ := fmShift_ok line len hlen hl 0
      cases hloop : (loop (len - 1) line fun i line => do
          let v ← rd line (i + 1)
          wr line i v) with
      | error e => rw [hloop, error_bind] at h1; cases h1
      | ok l2 =>
        rw [ok_bind]
        cases hw : line.take len with
        | nil => rw [hw] at hll; simp at hll; omega
        | cons a w =>
          have hnp : ¬ marker.take len <+: a :: w := by
            rw [← hw]
            have := prefix_window (marker.take len) (line.take len) [] (by omega)
            rw [List.append_nil] at this
            rw [this]; exact h
          unfold after
          rw [if_neg hnp, after_short _ _ (by rw [hw, List.length_cons] at hll; omega)]
          rfl
  | cons c s ih =>
    intro line hl
    have hll : (line.take len).length = len := by simp; omega
    unfold fmLoop
    rw [strncmpEq_ok _ _ _ (by omega) hm, ok_bind]
    by_cases h : line.take len = marker.take len
    · rw [if_pos (by simpa using h), h]
      cases hw : marker.take len with
      | nil => rw [hw] at hml; simp at hml; omega
      | cons a w =>
        rw [List.cons_append]
        unfold after
        rw [if_pos (by rw [← List.cons_append]; exact List.prefix_append _ _), ← List.cons_append, List.drop_left]
        rfl
    · rw [if_neg (by simpa using h)]
      obtain ⟨l1, h1, hl1, hwin⟩ := fmShift_ok line len hlen hl c
      have e : ∀ k : List Byte → CM (Int × List Byte), (do
          let line ← loop (len - 1) line fun i line => do
            let v ← rd line (i + 1)
            wr line i v
          let line ← wr line (len - 1) c
          let line ← wr line len 0
          k line) = k l1 := by
        intro k
        have : (do
          let line ← loop (len - 1) line fun i line => do
            let v ← rd line (i + 1)
            wr line i v
          let line ← wr line (len - 1) c
          let line ← wr line len 0
          k line) = ((do
          let line ← loop (len - 1) line fun i line => do
            let v ← rd line (i + 1)
            wr line i v
          let line ← wr line (len - 1) c
          wr line len 0 : CM (List Byte)) >>= k) := by
          simp only [bind_assoc]
        rw [this, h1, ok_bind]
      rw [e, ih l1 (by omega), hwin]
      cases hw : line.take len with
      | nil => rw [hw] at hll; simp at hll; omega
      | cons a w =>
        have hnp : ¬ marker.take len <+: a :: (w ++ c :: s) := by
          rw [← List.cons_append, ← hw, prefix_window _ _ _ (by omega)]; exact h
        conv_rhs => rw [List.cons_append]; unfold after; rw [if_neg hnp]
        simp

theorem after_nil (s : List Byte) : after [] s = some s := by
  cases s <;> simp [after]

theorem FindMarker_ok (infile marker : List Byte) : FindMarker infile marker = .ok (match after (marker.take 49) infile with
    | some r => (1, r)
    | none => (0, [])) := by
  unfold FindMarker
  dsimp only
  rw [show MAX_MARKER_LEN = 50 from rfl]
  have hlen : (if marker.length > 50 - 1 then 50 - 1 else marker.length) = min 49 marker.length := by
    split <;> omega
  have htake : marker.take (min 49 marker.length) = marker.take 49 := by
    rcases Nat.le_total 49 marker.length with h | h
    · rw [Nat.min_eq_left h]
    · rw [Nat.min_eq_right h, List.take_of_length_le h, List.take_of_length_le (le_refl _)]
  rw [hlen]
  generalize hl : min 49 marker.length = len at *
  rw [fmRead_ok _ _ _ _ (by simp; omega), ok_bind]
  by_cases h : len ≤ infile.length
  · rw [if_pos h]
    dsimp only
    rw [wr_ok (by rw [length_writeAt _ _ _ (by simp; omega)]; simp; omega), ok_bind]
    generalize hline : (writeAt (uninit 8 80 50) 0 (infile.take len)).set len 0 = line
    have hlinelen : line.length = 50 := by
      rw [← hline, List.length_set, length_writeAt _ _ _ (by simp; omega), length_uninit]
    have hwin : line.take len = infile.take len := by
      rw [← hline, List.take_set_of_le (le_refl _), writeAt, List.append_assoc, List.take_zero, List.nil_append,
        List.take_append_of_le_length (by simp; omega), List.take_take, Nat.min_self]
    rcases Nat.eq_zero_or_pos len with h0 | h0
    · subst h0
      rw [List.take_zero] at htake
      rw [← htake, after_nil]
      cases infile <;> simp [fmLoop, strncmpEq]
    · rw [fmLoop_ok marker len h0 (by omega) _ _ (by omega), hwin, htake, List.take_append_drop]
  · rw [if_neg h, after_short _ _ (by simp; omega)]
    rfl

/-! ### Digits -/

theorem hexShift_ok (L : Nat) (hL : 0 < L) (A : List Byte) (hA : A.length = L) (ich : Byte) (hi : ich.toNat < 16) :
    hexShift A L ich = .ok (toBE L (16 * ofBE A + ich.toNat)) := by
  unfold hexShift
  obtain ⟨l1, hl, hlen1, hget⟩ := loop_inv (n := L - 1) (s := A) (body := fun i A => (do
          let x ← rd A i
          let y ← rd A (i + 1)
          wr A i (n8 ((x.toNat <<< 4) ||| (y.toNat >>> 4))) : CM (List Byte)))
    (fun i (l : List Byte) => l.length = L ∧ ∀ j, l.getD j 0 =
      if j < i then n8 (((A.getD j 0).toNat <<< 4) ||| ((A.getD (j + 1) 0).toNat >>> 4)) else A.getD j 0)
    ⟨hA, fun j => by simp⟩
    (by
      intro i l hi ⟨h1, h2⟩
      rw [rd_ok 0 (by omega), ok_bind, rd_ok 0 (by omega), ok_bind, wr_ok (by omega)]
      refine ⟨_, rfl, by simp [h1], fun j => ?_⟩
      rw [getD_set]
      by_cases hj : i = j
      · subst hj
        rw [if_pos ⟨rfl, by omega⟩, if_pos (by omega), h2, h2, if_neg (by omega), if_neg (by omega)]
      · rw [if_neg (by omega), h2]
        by_cases hj2 : j < i
        · rw [if_pos hj2, if_pos (by omega)]
        · rw [if_neg hj2, if_neg (by omega)])
  rw [hl, ok_bind, rd_ok 0 (by omega), ok_bind, wr_ok (by omega)]
  congr 1
  have hx : A = toBE L (ofBE A) := by rw [← hA, toBE_ofBE]
  generalize ofBE A = x at hx ⊢
  have hgetA : ∀ j, j < L → A.getD j 0 = BitVec.ofNat 8 (x / 256 ^ (L - 1 - j)) := by
    intro j hj
    rw [hx]; unfold toBE
    rw [getD_map_range _ _ _ _ hj]
  apply ext_getD 0
  · simp [hlen1]
  · intro i hi2
    have hi3 : i < L := by simp [hlen1] at hi2; omega
    rw [getD_set]
    unfold toBE
    rw [getD_map_range _ _ _ _ hi3]
    have hor : ∀ a b : Nat, b < 16 → (a <<< 4) ||| b = 16 * a + b := by
      intro a b hb
      rw [← Nat.shiftLeft_add_eq_or_of_lt (show b < 2 ^ 4 by omega), Nat.shiftLeft_eq]; omega
    by_cases hlast : L - 1 = i
    · rw [if_pos ⟨hlast, by omega⟩, hget, if_neg (by omega), hgetA _ (by omega), hor _ _ hi, hlast]
      apply BitVec.eq_of_toNat_eq
      simp only [n8, BitVec.toNat_ofNat, Nat.sub_self, Nat.pow_zero, Nat.div_one]
      omega
    · rw [if_neg (by omega), hget, if_pos (by omega), hgetA _ hi3, hgetA _ (by omega)]
      obtain ⟨k, hk⟩ : ∃ k, L - 1 - i = k + 1 := ⟨L - 2 - i, by omega⟩
      rw [hk, show L - 1 - (i + 1) = k by omega]
      have h1 : x / 256 ^ (k + 1) = x / 256 ^ k / 256 := by rw [Nat.pow_succ, Nat.div_div_eq_div_mul]
      have h2 : (16 * x + ich.toNat) / 256 ^ (k + 1) = x / 256 ^ k / 16 := by
        rw [Nat.pow_succ, show 256 ^ k * 256 = 16 * (256 ^ k * 16) by ring, ← Nat.div_div_eq_div_mul, ← Nat.div_div_eq_div_mul]
        congr 2
        omega
      rw [h1, h2]
      generalize x / 256 ^ k = y
      apply BitVec.eq_of_toNat_eq
      simp only [n8, BitVec.toNat_ofNat, Nat.shiftRight_eq_div_pow]
      rw [hor _ _ (by omega)]
      omega

theorem isxdigit_eq (c : Byte) : isxdigit c = isHex c := by
  unfold isxdigit isHex digit?
  split
  · simp_all
  · split
    · simp_all
    · split
      · simp_all
      · simp_all

theorem hexDigit_eq (c : Byte) : (hexDigit c).toNat = (digit? c).getD 0 := by
  unfold hexDigit digit? n8
  split
  · simp; omega
  · split
    · simp; omega
    · split
      · simp; omega
      · simp

theorem digit_lt (c : Byte) : (digit? c).getD 0 < 16 := by
  unfold digit?
  split
  · simp; omega
  · split
    · simp; omega
    · split
      · simp; omega
      · simp

theorem readHexLoop_digits (L : Nat) (hL : 0 < L) (ds t : List Byte) (hds : ∀ c ∈ ds, isHex c = true) : ∀ (st : Bool) (x : Nat),
    readHexLoop (toBE L x) L st (ds ++ t) =
      readHexLoop (toBE L (ds.foldl (fun acc c => 16 * acc + (digit? c).getD 0) x)) L (st || !ds.isEmpty) t := by
  induction ds with
  | nil => intro st x; simp
  | cons c ds ih =>
    intro st x
    rw [List.cons_append]
    conv_lhs => unfold readHexLoop
    rw [isxdigit_eq, hds c (by simp)]
    simp only [Bool.not_true, Bool.false_eq_true, if_false]
    rw [hexShift_ok L hL _ (length_toBE _ _) _ (by rw [hexDigit_eq]; exact digit_lt c), ok_bind, ofBE_toBE, hexDigit_eq]
    have : toBE L (16 * (x % 256 ^ L) + (digit? c).getD 0) = toBE L (16 * x + (digit? c).getD 0) := by
      rw [← toBE_mod L (16 * (x % 256 ^ L) + _), ← toBE_mod L (16 * x + _)]
      congr 1
      rw [Nat.add_mod, Nat.mul_mod, Nat.mod_mod, ← Nat.mul_mod, ← Nat.add_mod]
    rw [this, ih (fun c hc => hds c (by simp [hc]))]
    simp

theorem readHexLoop_junk (A : List Byte) (L : Nat) (j t : List Byte) (hj : ∀ c ∈ j, isHex c = false ∧ c ≠ 10) :
    readHexLoop A L false (j ++ t) = readHexLoop A L false t := by
  induction j with
  | nil => rfl
  | cons c j ih =>
    have := hj c (by simp)
    rw [List.cons_append]
    conv_lhs => unfold readHexLoop
    rw [isxdigit_eq, this.1]
    simp only [Bool.not_false, if_true]
    rw [if_neg this.2, ih fun c hc => hj c (by simp [hc])]

theorem toBE_zero (L : Nat) : toBE L 0 = List.replicate L 0 := by
  unfold toBE
  simp [List.map_const']

theorem ReadHex_ok (infile S A : List Byte) (L : Nat) (hL : 0 < L) (hA : A.length = L) (hS : S.length ≤ 49)
    (j ds : List Byte) (hj : ∀ c ∈ j, isHex c = false ∧ c ≠ 10) (hds : ∀ c ∈ ds, isHex c = true) (hne : ds ≠ [])
    (c : Byte) (hc : isHex c = false) (rest : List Byte) (h : after S infile = some (j ++ ds ++ c :: rest)) :
    ReadHex infile A L S = .ok (1, toBE L (value ds), rest) := by
  unfold ReadHex
  rw [if_neg (by omega), memset_ok _ _ _ _ (by omega), ok_bind, FindMarker_ok, ok_bind, List.take_of_length_le hS, h]
  dsimp only
  rw [if_pos (by decide), writeAt_full _ _ (by simp [hA]), ← toBE_zero, List.append_assoc, readHexLoop_junk _ _ _ _ hj,
    readHexLoop_digits L hL ds _ hds]
  have : (false || !ds.isEmpty) = true := by simp [hne]
  rw [this]
  unfold readHexLoop
  rw [isxdigit_eq, hc]
  rfl

theorem ReadHex_blank (infile S A : List Byte) (L : Nat) (hL : 0 < L) (hA : A.length = L) (hS : S.length ≤ 49)
    (j : List Byte) (hj : ∀ c ∈ j, isHex c = false ∧ c ≠ 10) (rest : List Byte) (h : after S infile = some (j ++ 10 :: rest)) :
    ReadHex infile A L S = .ok (1, List.replicate L 0, rest) := by
  unfold ReadHex
  rw [if_neg (by omega), memset_ok _ _ _ _ (by omega), ok_bind, FindMarker_ok, ok_bind, List.take_of_length_le hS, h]
  dsimp only
  rw [if_pos (by decide), writeAt_full _ _ (by simp [hA]), readHexLoop_junk _ _ _ _ hj]
  rfl

theorem ReadHex_none (infile S A : List Byte) (L : Nat) (hL : 0 < L) (hA : A.length = L) (hS : S.length ≤ 49)
    (h : after S infile = none) : ReadHex infile A L S = .ok (0, List.replicate L 0, []) := by
  unfold ReadHex
  rw [if_neg (by omega), memset_ok _ _ _ _ (by omega), ok_bind, FindMarker_ok, ok_bind, List.take_of_length_le hS, h]
  dsimp only
  rw [if_neg (by decide), writeAt_full _ _ (by simp [hA])]
  rfl

theorem fprintBstr_ok (fp S A : List Byte) (L : Nat) (hL : 0 < L) (hA : L ≤ A.length) :
    fprintBstr fp S A L = .ok (fp ++ S ++ text (A.take L) ++ [10]) := by
  unfold fprintBstr
  dsimp only
  obtain ⟨r, hl, hr⟩ := loop_inv (n := L) (s := fp ++ S) (body := fun i fp => (do
    let x ← rd A i
    pure (fp ++ printByte x) : CM (List Byte))) (fun i (r : List Byte) => r = fp ++ S ++ text (A.take i)) (by simp [text])
    (by
      intro i r hi hr
      rw [rd_ok 0 (by omega), ok_bind]
      refine ⟨_, rfl, ?_⟩
      rw [hr, List.take_succ_eq_append_getElem (by omega), List.getD_eq_getElem _ _ (by omega)]
      simp only [text, List.flatMap_append, List.flatMap_cons, List.flatMap_nil, List.append_nil, List.append_assoc, List.append_cancel_left_eq]
      unfold printByte upper n8
      dsimp only
      congr 1
      · split
        · rfl
        · congr 1; omega
      · congr 1
        split
        · rfl
        · congr 1; omega)
  rw [hl, ok_bind, if_neg (by omega), hr]
  rfl

theorem upper_digit (n : Nat) (h : n < 16) : digit? (upper n) = some n := by
  unfold upper digit?
  split
  · rw [if_pos (by simp; omega)]; simp; omega
  · rw [if_neg (by simp; omega), if_pos (by simp; omega)]; simp; omega

theorem text_isHex (bs : List Byte) : ∀ c ∈ text bs, isHex c = true := by
  intro c hc
  unfold text at hc
  rw [List.mem_flatMap] at hc
  obtain ⟨b, _, hb⟩ := hc
  have := b.isLt
  simp only [List.mem_cons, List.not_mem_nil, or_false] at hb
  rcases hb with rfl | rfl
  · unfold isHex; rw [upper_digit _ (by omega)]; rfl
  · unfold isHex; rw [upper_digit _ (by omega)]; rfl

theorem value_text (bs : List Byte) : value (text bs) = ofBE bs := by
  unfold value ofBE
  have : ∀ x, (text bs).foldl (fun acc c => 16 * acc + (digit? c).getD 0) x = bs.foldl (fun acc b => 256 * acc + b.toNat) x := by
    induction bs with
    | nil => intro x; rfl
    | cons b bs ih =>
      intro x
      have hb := b.isLt
      unfold text at ih ⊢
      rw [List.flatMap_cons, List.foldl_append, ih]
      simp only [List.foldl_cons, List.foldl_nil]
      rw [upper_digit _ (by omega), upper_digit _ (by omega)]
      congr 1
      simp only [Option.getD_some]
      omega
  exact this 0

theorem after_extend (S pre X : List Byte) (h : after S (pre ++ S) = some []) : after S (pre ++ S ++ X) = some X := by
  induction pre with
  | nil =>
    rw [List.nil_append]
    cases S with
    | nil => rw [List.nil_append, after_nil]
    | cons a S =>
      rw [List.cons_append]
      unfold after
      rw [if_pos (by rw [← List.cons_append]; exact List.prefix_append _ _), ← List.cons_append, List.drop_left]
  | cons c pre ih =>
    rw [List.cons_append] at h
    rw [List.cons_append, List.cons_append]
    unfold after at h ⊢
    by_cases hp : S <+: c :: (pre ++ S)
    · rw [if_pos hp] at h
      have := congrArg List.length (Option.some.inj h)
      simp at this
      omega
    · rw [if_neg hp] at h
      rw [if_neg, ih h]
      intro hp'
      apply hp
      rw [List.prefix_iff_eq_take] at hp' ⊢
      rwa [← List.cons_append, ← List.cons_append, List.take_append_of_le_length (by simp; omega)] at hp'

end Saber
