import Verif.Proof.Rng
/-!
# Proofs about the seed expander of `rng.c`
-/
namespace Saber
open Spec Spec.Drbg

section
variable (E : Cipher) (key div : List Byte) (maxlen : Nat)

/-- Byte `n` of the key stream. -/
def keyByte (n : Nat) : Byte := (expanderBlock E key div maxlen (n / 16)).getD (n % 16) 0

/-- `ctx` has delivered `t` bytes of the stream and prepared `c` blocks. -/
structure ExpInv (ctx : AESXOF) (c t : Nat) : Prop where
  hkey : ctx.key = key
  ctr : ctx.ctr = div ++ toBE 4 maxlen ++ toBE 4 c
  len : ctx.buffer.length = 16
  pos : ctx.buffer_pos ≤ 16
  served : t + (16 - ctx.buffer_pos) = 16 * c
  buf : 0 < c → ctx.buffer = expanderBlock E key div maxlen (c - 1)

end

theorem expanderStream_eq {E : Cipher} (hE : BlockCipher E) (key div : List Byte) (maxlen n : Nat) :
    expanderStream E key div maxlen n = (List.range n).map (keyByte E key div maxlen) := by
  unfold expanderStream
  apply ext_getD 0
  · rw [List.length_take, length_flatMap_range 16 (expanderBlock E key div maxlen) (fun j => hE _ _)]
    simp [blocks]; omega
  · intro i hi
    rw [List.length_take, length_flatMap_range 16 (expanderBlock E key div maxlen) (fun j => hE _ _)] at hi
    have hi' : i < n := by omega
    rw [getD_take _ _ _ _ hi', getD_map_range _ _ _ _ hi', getD_flatMap_range 16 (by omega) (expanderBlock E key div maxlen) (fun j => hE _ _)]
    · rfl
    · unfold blocks at hi ⊢; omega

theorem map_range_add {α : Type} (f : Nat → α) (n m : Nat) :
    (List.range (n + m)).map f = (List.range n).map f ++ (List.range m).map fun j => f (n + j) := by
  rw [List.range_add, List.map_append, List.map_map]; rfl

theorem seedexpanderLoop_ok {E : Cipher} (hE : BlockCipher E) (key div : List Byte) (hdiv : div.length = 8) (maxlen : Nat) (n : Nat) :
    ∀ (ctx : AESXOF) (x : List Byte) (offset xlen c t : Nat), 2 * xlen + (if 16 ≤ ctx.buffer_pos then 1 else 0) = n →
    ExpInv E key div maxlen ctx c t → offset + xlen ≤ x.length →
    ∃ ctx' c', seedexpanderLoop E ctx x offset xlen =
        .ok (ctx', writeAt x offset ((List.range xlen).map fun j => keyByte E key div maxlen (t + j))) ∧
      ExpInv E key div maxlen ctx' c' (t + xlen) ∧ ctx'.length_remaining = ctx.length_remaining := by
  induction n using Nat.strongRecOn with
  | ind n ih =>
    intro ctx x offset xlen c t hn inv hx
    unfold seedexpanderLoop
    have hpos := inv.pos
    have hlen := inv.len
    have hserved := inv.served
    -- what the buffer holds
    have hbuf : ∀ m, m ≤ 16 - ctx.buffer_pos →
        (ctx.buffer.drop ctx.buffer_pos).take m = (List.range m).map fun j => keyByte E key div maxlen (t + j) := by
      intro m hm
      rw [← map_getD_range _ _ _ 0 (by omega)]
      apply List.map_congr_left
      intro j hj
      rw [List.mem_range] at hj
      unfold keyByte
      rw [inv.buf (by omega)]
      rw [show (t + j) / 16 = c - 1 by omega, show (t + j) % 16 = ctx.buffer_pos + j by omega]
    by_cases h0 : 0 < xlen
    · rw [dif_pos h0]
      by_cases h1 : xlen ≤ 16 - ctx.buffer_pos
      · rw [dif_pos (Or.inl h1), memcpy_ok _ _ _ _ _ (by omega) hx, ok_bind, hbuf _ h1]
        refine ⟨_, c, rfl, ⟨inv.hkey, inv.ctr, inv.len, ?_, ?_, inv.buf⟩, rfl⟩
        · show ctx.buffer_pos + xlen ≤ 16
          omega
        · show t + xlen + (16 - (ctx.buffer_pos + xlen)) = 16 * c
          omega
      · rw [dif_neg (by omega), memcpy_ok _ _ _ _ _ (by omega) (by omega), ok_bind, hbuf _ (le_refl _),
          AES256_ECB_ok hE _ _ _ _ (by omega), ok_bind, writeAt_full _ _ (by rw [hE]; omega), inv.ctr]
        have hi := incCtr_ok 4 (div ++ toBE 4 maxlen) [] c
        simp only [List.append_nil, List.length_append, hdiv, length_toBE] at hi
        rw [hi, ok_bind]
        generalize hm : 16 - ctx.buffer_pos = m at *
        obtain ⟨ctx', c', h, inv', hrem⟩ := ih (2 * (xlen - m)) (by split at hn <;> omega)
          { ctx with buffer := E ctx.key (div ++ toBE 4 maxlen ++ toBE 4 c), buffer_pos := 0, ctr := div ++ toBE 4 maxlen ++ toBE 4 (c + 1) }
          (writeAt x offset ((List.range m).map fun j => keyByte E key div maxlen (t + j))) (offset + m) (xlen - m) (c + 1) (t + m)
          (by simp) ⟨inv.hkey, rfl, hE _ _, by simp, by simp; omega, fun _ => by simp [expanderBlock, inv.hkey]⟩
          (by rw [length_writeAt _ _ _ (by simp; omega)]; omega)
        refine ⟨ctx', c', ?_, by rwa [show t + m + (xlen - m) = t + xlen by omega] at inv', hrem⟩
        rw [h]
        have e := writeAt_append x offset ((List.range m).map fun j => keyByte E key div maxlen (t + j))
          ((List.range (xlen - m)).map fun j => keyByte E key div maxlen (t + m + j)) (by simp; omega)
        simp only [List.length_map, List.length_range] at e
        rw [e]
        have e2 := map_range_add (fun j => keyByte E key div maxlen (t + j)) m (xlen - m)
        rw [show m + (xlen - m) = xlen by omega] at e2
        rw [e2]
        simp only [Nat.add_assoc]
    · have : xlen = 0 := by omega
      subst this
      rw [dif_neg h0]
      exact ⟨ctx, c, by simp, by simpa using inv, rfl⟩

/-- Sizes of the arrays of a seed expander context. -/
def AESXOF.WF (ctx : AESXOF) : Prop := ctx.buffer.length = 16 ∧ ctx.key.length = 32 ∧ ctx.ctr.length = 16

theorem toBE4 (m : Nat) : toBE 4 m = [n8 (m >>> 8 >>> 8 >>> 8 % 256), n8 (m >>> 8 >>> 8 % 256), n8 (m >>> 8 % 256), n8 (m % 256)] := by
  unfold n8
  rw [toBE_succ, toBE_succ, toBE_succ, toBE_succ]
  simp only [Nat.shiftRight_eq_div_pow]
  have h : ∀ x, BitVec.ofNat 8 (x % 256) = BitVec.ofNat 8 x := by
    intro x; apply BitVec.eq_of_toNat_eq; simp
  simp only [h]
  rfl

theorem seedexpander_init_ok (E : Cipher) (ctx : AESXOF) (hw : ctx.WF) (seed div : List Byte) (hs : seed.length = 32) (hd : div.length = 8)
    (maxlen : Nat) (hm : maxlen < 0x100000000) :
    ∃ ctx', seedexpander_init ctx seed div maxlen = .ok (0, ctx') ∧ ExpInv E seed div maxlen ctx' 0 0 ∧ ctx'.length_remaining = maxlen := by
  obtain ⟨h1, h2, h3⟩ := hw
  unfold seedexpander_init
  rw [if_neg (by omega), memcpy_ok _ _ _ _ _ (by omega) (by omega), ok_bind, memcpy_ok _ _ _ _ _ (by omega) (by omega), ok_bind,
    List.drop_zero, List.drop_zero, List.take_of_length_le (show seed.length ≤ 32 by omega), List.take_of_length_le (show div.length ≤ 8 by omega),
    writeAt_full ctx.key _ (by omega)]
  have hc : writeAt ctx.ctr 0 div = div ++ ctx.ctr.drop 8 := by simp [writeAt, hd]
  rw [hc]
  have hr : (ctx.ctr.drop 8).length = 8 := by simp; omega
  generalize ctx.ctr.drop 8 = r at hr
  match r, hr with
  | [r0, r1, r2, r3, r4, r5, r6, r7], _ =>
    have key : ∀ (l l' : List Byte) (i : Nat) (v : Byte), wr l i v = .ok (l.set i v) → (div ++ l).length = 16 →
        wr (div ++ l) (8 + i) v = .ok (div ++ l.set i v) := by
      intro l l' i v h hl
      have : i < l.length := by
        unfold wr at h
        by_contra hc
        rw [if_neg hc] at h; cases h
      rw [wr_ok (by simp; omega), ← hd, List.set_append_right _ _ (by omega), Nat.add_sub_cancel_left]
    dsimp only
    rw [key _ [] 3 _ (wr_ok (by simp)) (by simp [hd]), ok_bind, key _ [] 2 _ (wr_ok (by simp)) (by simp [hd]), ok_bind,
      key _ [] 1 _ (wr_ok (by simp)) (by simp [hd]), ok_bind, key _ [] 0 _ (wr_ok (by simp)) (by simp [hd]), ok_bind,
      memset_ok _ _ _ _ (by simp [hd]), ok_bind, memset_ok _ _ _ _ (by omega), ok_bind]
    refine ⟨_, rfl, ⟨rfl, ?_, ?_, le_refl _, rfl, fun h => absurd h (by omega)⟩, rfl⟩
    · show writeAt (div ++ _) 12 (List.replicate 4 0) = _
      rw [toBE4]
      have e : ∀ a b c d e f g h : Byte, writeAt (div ++ [a, b, c, d, e, f, g, h]) 12 (List.replicate 4 0) = div ++ [a, b, c, d] ++ toBE 4 0 := by
        intro a b c d e f g h
        unfold writeAt
        rw [List.take_append, List.take_of_length_le (by omega), hd, List.drop_of_length_le (by simp [hd])]
        simp [toBE]
      simp only [List.set]
      rw [e]
    · show (writeAt ctx.buffer 0 (List.replicate 16 0)).length = 16
      rw [length_writeAt _ _ _ (by simp; omega)]; exact h1

/-- One request. -/
theorem seedexpander_accept {E : Cipher} (hE : BlockCipher E) (key div : List Byte) (hdiv : div.length = 8) (maxlen : Nat)
    (ctx : AESXOF) (c t : Nat) (inv : ExpInv E key div maxlen ctx c t) (x : List Byte) (xlen : Nat) (hx : xlen ≤ x.length)
    (hlt : xlen < ctx.length_remaining) :
    ∃ ctx' c', seedexpander E ctx (some x) xlen =
        .ok (0, ctx', some (writeAt x 0 ((List.range xlen).map fun j => keyByte E key div maxlen (t + j)))) ∧
      ExpInv E key div maxlen ctx' c' (t + xlen) ∧ ctx'.length_remaining = ctx.length_remaining - xlen := by
  unfold seedexpander
  dsimp only
  rw [if_neg (by omega)]
  obtain ⟨ctx', c', h, inv', hr⟩ := seedexpanderLoop_ok hE key div hdiv maxlen _
    { ctx with length_remaining := ctx.length_remaining - xlen } x 0 xlen c t rfl
    ⟨inv.hkey, inv.ctr, inv.len, inv.pos, inv.served, inv.buf⟩ (by omega)
  rw [h, ok_bind]
  exact ⟨ctx', c', rfl, inv', hr⟩

theorem seedexpander_reject (E : Cipher) (ctx : AESXOF) (x : List Byte) (xlen : Nat) (h : ctx.length_remaining ≤ xlen) :
    seedexpander E ctx (some x) xlen = .ok (-3, ctx, some x) := by
  unfold seedexpander
  dsimp only
  rw [if_pos h]; rfl

/-! ### Histories of requests -/

/-- A sequence of requests: fresh zeroed output buffers of the requested lengths.  Returns the accepted outputs in order, and the
final context. -/
def expanderRun (E : Cipher) (ctx : AESXOF) : List Nat → CM (List (List Byte) × AESXOF)
  | [] => .ok ([], ctx)
  | n :: ns => do
    let (rc, ctx, x) ← seedexpander E ctx (some (List.replicate n 0)) n
    let (outs, ctx) ← expanderRun E ctx ns
    pure (if rc = 0 then x.getD [] :: outs else outs, ctx)

/-- The requests that fit the budget: a request is served if and only if it is smaller than what remains. -/
def accepted : Nat → List Nat → List Nat
  | _, [] => []
  | rem, n :: ns => if n < rem then n :: accepted (rem - n) ns else accepted rem ns

theorem accepted_sum (ns : List Nat) : ∀ rem, 0 < rem → (accepted rem ns).sum < rem := by
  induction ns with
  | nil => intro rem h; simpa [accepted] using h
  | cons n ns ih =>
    intro rem h
    unfold accepted
    split
    · have := ih (rem - n) (by omega)
      simp; omega
    · exact ih rem h

theorem accepted_zero (ns : List Nat) : accepted 0 ns = [] := by
  induction ns with
  | nil => rfl
  | cons n ns ih => unfold accepted; rw [if_neg (by omega), ih]

theorem expanderRun_ok {E : Cipher} (hE : BlockCipher E) (key div : List Byte) (hdiv : div.length = 8) (maxlen : Nat) (ns : List Nat) :
    ∀ (ctx : AESXOF) (c t : Nat), ExpInv E key div maxlen ctx c t →
    ∃ outs ctx' c', expanderRun E ctx ns = .ok (outs, ctx') ∧
      outs.map List.length = accepted ctx.length_remaining ns ∧
      outs.flatten = (List.range (accepted ctx.length_remaining ns).sum).map (fun j => keyByte E key div maxlen (t + j)) ∧
      ctx'.length_remaining = ctx.length_remaining - (accepted ctx.length_remaining ns).sum ∧
      ExpInv E key div maxlen ctx' c' (t + (accepted ctx.length_remaining ns).sum) := by
  induction ns with
  | nil => intro ctx c t inv; exact ⟨[], ctx, c, rfl, rfl, rfl, rfl, by simpa [accepted] using inv⟩
  | cons n ns ih =>
    intro ctx c t inv
    unfold expanderRun accepted
    by_cases h : n < ctx.length_remaining
    · obtain ⟨ctx1, c1, h1, inv1, hr1⟩ := seedexpander_accept hE key div hdiv maxlen ctx c t inv (List.replicate n 0) n (by simp) h
      obtain ⟨outs, ctx2, c2, h2, hl, hf, hr2, inv2⟩ := ih ctx1 c1 (t + n) inv1
      rw [if_pos h, h1, ok_bind]
      dsimp only
      rw [h2, ok_bind]
      refine ⟨_, ctx2, c2, rfl, ?_, ?_, ?_, ?_⟩
      · simp only [if_true, Option.getD_some, List.map_cons]
        rw [writeAt_full _ _ (by simp), hl, hr1]; simp
      · simp only [if_true, Option.getD_some, List.flatten_cons, List.sum_cons]
        rw [writeAt_full _ _ (by simp), hf, hr1, map_range_add]
        simp only [Nat.add_assoc]
      · rw [hr2, hr1, List.sum_cons]; omega
      · rw [hr1] at inv2
        rw [List.sum_cons, ← Nat.add_assoc]; exact inv2
    · rw [if_neg h, seedexpander_reject E ctx _ _ (by omega), ok_bind]
      dsimp only
      obtain ⟨outs, ctx2, c2, h2, hrest⟩ := ih ctx c t inv
      rw [h2, ok_bind]
      exact ⟨outs, ctx2, c2, rfl, hrest⟩

end Saber
