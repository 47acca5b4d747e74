import Verif.Proof.Leak.Logic
import Verif.Proof.Rng
import Verif.Model.Leak.Rng
import Verif.Spec.Carry
/-!
# Events of the random number generator

`D x y C Q`: the events of `x` and `y` agree if and only if `C` holds, and the events can be told apart from what follows.
-/
namespace Saber.Leak
open Spec.Drbg Spec.Carry

/-! ### Erasure -/

theorem E_AES256_ECB (F : Cipher) (key ctr buffer : List Byte) (off : Nat) : E (AES256_ECB F key ctr buffer off) (Saber.AES256_ECB F key ctr buffer off) := rfl

theorem E_incCtr (lo k : Nat) : ∀ V, E (incCtr V lo k) (Saber.incCtr V lo k) := by
  induction k with
  | zero => intro V; exact E.branch _ (E.pure _)
  | succ k ih =>
    intro V
    refine E.branch _ (E.bind (E.rd _ _) fun v => E.branch _ (E.ite ?_ (E.wr _ _ _)))
    exact E.bind (E.wr _ _ _) fun V' => ih V'

theorem E_xorData (a : List Byte) (p : Option (List Byte)) : E (xorData a p) (Saber.xorData a p) := by
  refine E.branch _ ?_
  cases p with
  | none => exact E.pure _
  | some p => exact E.loop (fun i a => E.bind (E.rd _ _) fun _ => E.bind (E.rd _ _) fun _ => E.wr _ _ _) _ _

theorem E_AES256_CTR_DRBG_Update (F : Cipher) (p : Option (List Byte)) (Key V : List Byte) :
    E (AES256_CTR_DRBG_Update F p Key V) (Saber.AES256_CTR_DRBG_Update F p Key V) := by
  refine E.bind (E.loop (fun i s => ?_) _ _) fun s => ?_
  · exact E.bind (E_incCtr _ _ _) fun V => E.bind (E_AES256_ECB _ _ _ _ _) fun _ => E.pure _
  · exact E.bind (E_xorData _ _) fun _ => E.bind (E.memcpy _ _ _ _ _) fun _ => E.bind (E.memcpy _ _ _ _ _) fun _ => E.pure _

theorem E_randombytes_init (F : Cipher) (e : List Byte) (p : Option (List Byte)) (ctx : DRBG) :
    E (randombytes_init F e p ctx) (Saber.randombytes_init F e p ctx) :=
  E.bind (E.memcpy _ _ _ _ _) fun _ => E.bind (E_xorData _ _) fun _ => E.bind (E.memset _ _ _ _) fun _ => E.bind (E.memset _ _ _ _) fun _ =>
    E.bind (E_AES256_CTR_DRBG_Update _ _ _ _) fun _ => E.pure _

theorem E_randombytesLoop (F : Cipher) (Key : List Byte) (off xlen : Nat) : ∀ (V x : List Byte) (i : Int),
    E (randombytesLoop F Key V x off i xlen) (Saber.randombytesLoop F Key V x off i xlen) := by
  induction xlen using Nat.strong_induction_on with
  | h xlen ih =>
    intro V x i
    unfold randombytesLoop Saber.randombytesLoop
    refine E.branch _ ?_
    by_cases h : 0 < xlen
    · rw [dif_pos h, dif_pos h]
      refine E.bind (E_incCtr _ _ _) fun V => E.bind (E_AES256_ECB _ _ _ _ _) fun b => E.branch _ ?_
      by_cases h2 : 15 < xlen
      · rw [dif_pos h2, dif_pos h2]
        exact E.bind (E.memcpy _ _ _ _ _) fun x => E.bind (E.iadd _ _) fun i => ih _ (by omega) _ _ _
      · rw [dif_neg h2, dif_neg h2]
        exact E.bind (E.memcpy _ _ _ _ _) fun x => E.pure _
    · rw [dif_neg h, dif_neg h]
      exact E.pure _

theorem E_randombytes (F : Cipher) (x : List Byte) (off xlen : Nat) (ctx : DRBG) : E (randombytes F x off xlen ctx) (Saber.randombytes F x off xlen ctx) :=
  E.bind (E_randombytesLoop _ _ _ _ _ _ _) fun _ => E.bind (E_AES256_CTR_DRBG_Update _ _ _ _) fun _ => E.bind (E.iadd _ _) fun _ => E.pure _

theorem E_seedexpanderLoop (F : Cipher) (ctx : AESXOF) (x : List Byte) (offset xlen : Nat) :
    E (seedexpanderLoop F ctx x offset xlen) (Saber.seedexpanderLoop F ctx x offset xlen) := by
  induction ctx, x, offset, xlen using Saber.seedexpanderLoop.induct with
  | case1 ctx x off xlen h h2 =>
    unfold seedexpanderLoop Saber.seedexpanderLoop
    refine E.branch _ ?_
    rw [dif_pos h, dif_pos h]
    refine E.branch _ ?_
    rw [dif_pos h2, dif_pos h2]
    exact E.bind (E.memcpy _ _ _ _ _) fun x => E.pure _
  | case2 ctx x off xlen h h2 ih =>
    unfold seedexpanderLoop Saber.seedexpanderLoop
    refine E.branch _ ?_
    rw [dif_pos h, dif_pos h]
    refine E.branch _ ?_
    rw [dif_neg h2, dif_neg h2]
    exact E.bind (E.memcpy _ _ _ _ _) fun x => E.bind (E_AES256_ECB _ _ _ _ _) fun b => E.bind (E_incCtr _ _ _) fun c => ih _ _ _
  | case3 ctx x off xlen h =>
    unfold seedexpanderLoop Saber.seedexpanderLoop
    refine E.branch _ ?_
    rw [dif_neg h, dif_neg h]
    exact E.pure _

theorem E_seedexpander (F : Cipher) (ctx : AESXOF) (x : Option (List Byte)) (xlen : Nat) : E (seedexpander F ctx x xlen) (Saber.seedexpander F ctx x xlen) := by
  refine E.branch _ ?_
  cases x with
  | none => exact E.pure _
  | some x =>
    refine E.branch _ (E.ite (E.pure _) ?_)
    exact E.bind (E_seedexpanderLoop _ _ _ _ _) fun _ => E.pure _

/-! ### Exact comparison of events -/

/-- The events of `x` and `y` agree if and only if `C` holds, also when further events follow. -/
structure D {α β : Type} (x : LM α) (y : LM β) (C : Prop) (Q : α → β → Prop) : Prop where
  /-- see above -/
  same : ∀ a b, x.out = .ok a → y.out = .ok b → (∀ r r', x.trace ++ r = y.trace ++ r' ↔ C ∧ r = r') ∧ Q a b

section
variable {α β γ δ : Type}

theorem D.congr {x : LM α} {y : LM β} {C C' : Prop} {Q Q' : α → β → Prop} (h : D x y C Q) (hC : C ↔ C') (hQ : ∀ a b, Q a b → Q' a b) :
    D x y C' Q' :=
  ⟨fun a b ha hb => ⟨fun r r' => by rw [(h.same a b ha hb).1, hC], hQ a b (h.same a b ha hb).2⟩⟩

theorem R2.exact {x : LM α} {y : LM β} {Q : α → β → Prop} (h : R2 x y Q) : D x y True Q := by
  refine ⟨fun a b ha hb => ⟨fun r r' => ?_, (h.same a b ha hb).2⟩⟩
  rw [(h.same a b ha hb).1, List.append_right_inj, true_and]

theorem D.bind {x : LM α} {y : LM β} {f : α → LM γ} {g : β → LM δ} {C C' : Prop} {Q : α → β → Prop} {R : γ → δ → Prop} (h : D x y C Q)
    (h' : ∀ a b, Q a b → D (f a) (g b) C' R) : D (x >>= f) (y >>= g) (C ∧ C') R := by
  refine ⟨fun c d hc hd => ?_⟩
  rw [bind_def, LM.bind] at hc hd ⊢
  rw [bind_def, LM.bind]
  cases hx : x.out with
  | error e => rw [hx] at hc; cases hc
  | ok a =>
    cases hy : y.out with
    | error e => rw [hy] at hd; cases hd
    | ok b =>
      rw [hx] at hc
      rw [hy] at hd
      have h1 := h.same a b hx hy
      have h2 := (h' a b h1.2).same c d hc hd
      refine ⟨fun r r' => ?_, h2.2⟩
      simp only [List.append_assoc]
      rw [h1.1, h2.1, and_assoc]

/-- A first part whose events always agree. -/
theorem D.skip {x : LM α} {y : LM β} {f : α → LM γ} {g : β → LM δ} {C : Prop} {Q : α → β → Prop} {R : γ → δ → Prop} (h : R2 x y Q)
    (h' : ∀ a b, Q a b → D (f a) (g b) C R) : D (x >>= f) (y >>= g) C R :=
  (D.bind h.exact h').congr (by simp) fun _ _ h => h

/-- A second part whose events always agree. -/
theorem D.then {x : LM α} {y : LM β} {f : α → LM γ} {g : β → LM δ} {C : Prop} {Q : α → β → Prop} {R : γ → δ → Prop} (h : D x y C Q)
    (h' : ∀ a b, Q a b → R2 (f a) (g b) R) : D (x >>= f) (y >>= g) C R :=
  (D.bind h fun a b hq => (h' a b hq).exact).congr (by simp) fun _ _ h => h

theorem D.loop {σ τ : Type} {I : Nat → σ → τ → Prop} {C : Nat → Prop} {b : Nat → σ → LM σ} {c : Nat → τ → LM τ}
    (h : ∀ i s t, I i s t → D (b i s) (c i t) (C i) (I (i + 1))) (n : Nat) (s : σ) (t : τ) (h0 : I 0 s t) :
    D (loop n s b) (loop n t c) (∀ i, i < n → C i) (I n) := by
  induction n with
  | zero => exact (R2.exact (R2.pure h0)).congr (by simp) fun _ _ h => h
  | succ n ih =>
    refine (D.bind (C' := C n) ih fun s' t' hI => D.skip (x := (⟨[.iter], .ok ()⟩ : LM Unit)) (y := (⟨[.iter], .ok ()⟩ : LM Unit))
      (Q := fun _ _ => True) ⟨fun _ _ _ _ => ⟨rfl, trivial⟩⟩ fun _ _ _ => h n s' t' hI).congr ?_ fun _ _ h => h
    constructor
    · rintro ⟨h1, h2⟩ i hi
      rcases Nat.lt_succ_iff_lt_or_eq.mp hi with h3 | rfl
      · exact h1 i h3
      · exact h2
    · exact fun h1 => ⟨fun i hi => h1 i (by omega), h1 n (by omega)⟩

end

/-! ### The counter -/

theorem wraps_zero (x : Nat) : wraps 0 x = 0 := rfl

theorem wraps_succ (k x : Nat) : wraps (k + 1) x = if x % 256 = 255 then wraps k (x / 256) + 1 else 0 := by
  unfold wraps
  rw [List.range_succ_eq_map, List.countP_cons, List.countP_map]
  by_cases h : x % 256 = 255
  · rw [if_pos h]
    have hx : x + 1 = 256 * (x / 256 + 1) := by omega
    have e : ∀ i, ((fun i => decide (256 ^ (i + 1) ∣ x + 1)) ∘ Nat.succ) i = decide (256 ^ (i + 1) ∣ x / 256 + 1) := by
      intro i
      have : (256 ^ (i + 1 + 1) ∣ x + 1) ↔ (256 ^ (i + 1) ∣ x / 256 + 1) := by
        rw [hx, Nat.pow_succ' (n := i + 1)]
        exact Nat.mul_dvd_mul_iff_left (by omega)
      simp only [Function.comp, Nat.succ_eq_add_one, this]
    rw [show ((fun i => decide (256 ^ (i + 1) ∣ x + 1)) ∘ Nat.succ) = fun i => decide (256 ^ (i + 1) ∣ x / 256 + 1) from funext e]
    rw [if_pos]
    simp only [Nat.zero_add, pow_one, decide_eq_true_eq]
    omega
  · rw [if_neg h]
    have h0 : ∀ i, ¬ 256 ^ (i + 1) ∣ x + 1 := by
      intro i hd
      have : 256 ∣ x + 1 := Nat.dvd_trans ⟨256 ^ i, by rw [Nat.pow_succ']⟩ hd
      omega
    rw [if_neg (by rw [decide_eq_true_eq]; exact h0 0)]
    rw [Nat.add_zero, List.countP_eq_zero]
    intro i _
    simp only [Function.comp, decide_eq_true_eq]
    exact h0 _

/-- The events of the increment of a counter with value `x`. -/
def incTrace (lo : Nat) : Nat → Nat → List Event
  | 0, _ => [.branch false]
  | k + 1, x =>
    .branch true :: .read (lo + k) :: .branch (decide (x % 256 = 255)) :: .write (lo + k) ::
      if x % 256 = 255 then incTrace lo k (x / 256) else []

theorem incTrace_inj (lo k : Nat) : ∀ (x y : Nat) (r r' : List Event),
    incTrace lo k x ++ r = incTrace lo k y ++ r' ↔ wraps k x = wraps k y ∧ r = r' := by
  induction k with
  | zero => intro x y r r'; simp [incTrace, wraps_zero]
  | succ k ih =>
    intro x y r r'
    rw [wraps_succ, wraps_succ]
    unfold incTrace
    by_cases hx : x % 256 = 255 <;> by_cases hy : y % 256 = 255
    · simp only [hx, hy, if_true, List.cons_append, List.cons.injEq, true_and]
      rw [ih]
      simp
    · simp [hx, hy]
    · simp [hx, hy]
    · simp [hx, hy]

theorem incCtr_trace (k : Nat) : ∀ (pre suf : List Byte) (x : Nat),
    (incCtr (pre ++ toBE k x ++ suf) pre.length k).trace = incTrace pre.length k x := by
  induction k with
  | zero => intro pre suf x; rfl
  | succ k ih =>
    intro pre suf x
    unfold incCtr incTrace
    rw [toBE_succ]
    have e : pre ++ (toBE k (x / 256) ++ [BitVec.ofNat 8 x]) ++ suf = pre ++ toBE k (x / 256) ++ (BitVec.ofNat 8 x :: suf) := by simp
    have hl : (pre ++ toBE k (x / 256)).length = pre.length + k := by simp
    have hset : ∀ b : Byte, (pre ++ toBE k (x / 256) ++ (BitVec.ofNat 8 x :: suf)).set (pre.length + k) b = pre ++ toBE k (x / 256) ++ (b :: suf) := by
      intro b
      rw [← hl, List.set_append_right _ _ (le_refl _), Nat.sub_self]; rfl
    have hg : (pre ++ toBE k (x / 256) ++ (BitVec.ofNat 8 x :: suf)).getD (pre.length + k) 0 = BitVec.ofNat 8 x := by
      rw [List.getD_eq_getElem?_getD, List.getElem?_append_right (by simp), hl, Nat.sub_self]; rfl
    have h1 : (BitVec.ofNat 8 x = (0xff : Byte)) ↔ x % 256 = 255 := by
      constructor
      · intro h2
        have := congrArg BitVec.toNat h2
        rwa [BitVec.toNat_ofNat] at this
      · intro h
        apply BitVec.eq_of_toNat_eq; rw [BitVec.toNat_ofNat]; exact h
    have hr : Saber.rd (pre ++ toBE k (x / 256) ++ (BitVec.ofNat 8 x :: suf)) (pre.length + k) = .ok (BitVec.ofNat 8 x) := by
      rw [rd_ok 0 (by simp), hg]
    have hw : ∀ b : Byte, Saber.wr (pre ++ toBE k (x / 256) ++ (BitVec.ofNat 8 x :: suf)) (pre.length + k) b = .ok (pre ++ toBE k (x / 256) ++ (b :: suf)) := by
      intro b
      rw [wr_ok (by simp), hset]
    rw [e]
    simp only [bind_def, LM.bind, branch, rd, wr, hr, hw]
    by_cases h : x % 256 = 255
    · simp only [if_pos h, if_pos (h1.mpr h), decide_eq_true h, decide_eq_true (h1.mpr h), hw, ih, List.cons_append, List.nil_append]
    · have h' := fun c => h (h1.mp c)
      simp only [if_neg h, if_neg h', decide_eq_false h, decide_eq_false h', List.cons_append, List.nil_append]

theorem D_incCtr (x y : Nat) : D (incCtr (toBE 16 x) 0 16) (incCtr (toBE 16 y) 0 16) (wraps 16 x = wraps 16 y)
    fun V V' => V = toBE 16 (x + 1) ∧ V' = toBE 16 (y + 1) := by
  refine ⟨fun a b ha hb => ⟨fun r r' => ?_, ?_⟩⟩
  · have h1 := incCtr_trace 16 [] [] x
    have h2 := incCtr_trace 16 [] [] y
    simp only [List.nil_append, List.append_nil, List.length_nil] at h1 h2
    rw [h1, h2, incTrace_inj]
  · have e1 : (incCtr (toBE 16 x) 0 16).out = _ := E_incCtr 0 16 _
    have e2 : (incCtr (toBE 16 y) 0 16).out = _ := E_incCtr 0 16 _
    rw [e1, incCtr_16] at ha
    rw [e2, incCtr_16] at hb
    cases ha
    cases hb
    exact ⟨rfl, rfl⟩

/-! ### The generator -/

theorem CT_AES256_ECB (F F' : Cipher) (k k' c c' b b' : List Byte) (off : Nat) : CT (AES256_ECB F k c b off) (AES256_ECB F' k' c' b' off) :=
  ⟨fun _ _ _ _ => ⟨rfl, trivial⟩⟩

theorem CT_xorData (a a' : List Byte) (p p' : Option (List Byte)) (h : p.isSome = p'.isSome) : CT (xorData a p) (xorData a' p') := by
  unfold xorData
  rw [h]
  refine CT.bind (CT.branch _) fun _ _ => ?_
  cases p <;> cases p' <;> try cases h
  · exact CT.pure _ _
  · refine CT.loop (fun i _ _ => ?_) _ _ _
    exact CT.bind (CT.rd _ _ _) fun _ _ => CT.bind (CT.rd _ _ _) fun _ _ => CT.wr _ _ _ _ _

theorem D_Update (F F' : Cipher) (p p' : Option (List Byte)) (h : p.isSome = p'.isSome) (K K' : List Byte) (x y : Nat) :
    D (AES256_CTR_DRBG_Update F p K (toBE 16 x)) (AES256_CTR_DRBG_Update F' p' K' (toBE 16 y))
      (∀ i, i < 3 → wraps 16 (x + i) = wraps 16 (y + i)) fun _ _ => True := by
  unfold AES256_CTR_DRBG_Update
  refine D.then (D.loop (I := fun i s t => s.1 = toBE 16 (x + i) ∧ t.1 = toBE 16 (y + i)) ?_ _ _ _ ⟨rfl, rfl⟩) ?_
  · rintro i ⟨V, t⟩ ⟨V', t'⟩ ⟨h1, h2⟩
    dsimp only at h1 h2 ⊢
    subst h1 h2
    refine D.then (D_incCtr _ _) fun a b hab => ?_
    exact CT.bind (CT_AES256_ECB _ _ _ _ _ _ _ _ _) fun _ _ => R2.pure hab
  · rintro ⟨V, t⟩ ⟨V', t'⟩ _
    exact CT.bind (CT_xorData _ _ _ _ h) fun _ _ => CT.bind (CT.memcpy _ _ _ _ _ _ _) fun _ _ =>
      CT.bind (CT.memcpy _ _ _ _ _ _ _) fun _ _ => CT.pure _ _

theorem blocks_step (n : Nat) (h : 15 < n) : blocks n = blocks (n - 16) + 1 := by unfold blocks; omega

theorem D_randombytesLoop (F F' : Cipher) (K K' : List Byte) (off n : Nat) : ∀ (x y : Nat) (b b' : List Byte) (i : Int),
    D (randombytesLoop F K (toBE 16 x) b off i n) (randombytesLoop F' K' (toBE 16 y) b' off i n)
      (∀ j, j < blocks n → wraps 16 (x + j) = wraps 16 (y + j))
      fun s t => s.2 = toBE 16 (x + blocks n) ∧ t.2 = toBE 16 (y + blocks n) := by
  induction n using Nat.strong_induction_on with
  | h n ih =>
    intro x y b b' i
    unfold randombytesLoop
    refine D.skip (CT.branch _) fun _ _ _ => ?_
    by_cases h : 0 < n
    · rw [dif_pos h, dif_pos h]
      by_cases h2 : 15 < n
      · refine (D.bind (C' := ∀ j, j < blocks (n - 16) → wraps 16 (x + 1 + j) = wraps 16 (y + 1 + j)) (D_incCtr _ _) ?_).congr
          ?_ fun _ _ h => h
        · rintro V V' ⟨rfl, rfl⟩
          refine D.skip (CT_AES256_ECB _ _ _ _ _ _ _ _ _) fun _ _ _ => D.skip (CT.branch _) fun _ _ _ => ?_
          rw [dif_pos h2, dif_pos h2]
          refine D.skip (CT.memcpy _ _ _ _ _ _ _) fun _ _ _ => D.skip (Q := fun a b => a = b) ?_ ?_
          · refine ⟨fun a b ha hb => ⟨rfl, ?_⟩⟩
            rw [ha] at hb
            exact Except.ok.inj hb
          · rintro a _ rfl
            refine (ih (n - 16) (by omega) (x + 1) (y + 1) _ _ a).congr Iff.rfl fun s t hst => ?_
            rw [blocks_step n h2, hst.1, hst.2]
            exact ⟨by congr 1; omega, by congr 1; omega⟩
        · rw [blocks_step n h2]
          constructor
          · rintro ⟨h3, h4⟩ j hj
            cases j with
            | zero => exact h3
            | succ j =>
              have := h4 j (by omega)
              rwa [Nat.add_right_comm, Nat.add_right_comm y] at this
          · intro h3
            refine ⟨h3 0 (by omega), fun j hj => ?_⟩
            have := h3 (j + 1) (by omega)
            rwa [Nat.add_right_comm, Nat.add_right_comm y]
      · have hb : blocks n = 1 := by unfold blocks; omega
        rw [hb]
        refine (D.then (D_incCtr x y) (R := fun (s t : List Byte × List Byte) => s.2 = toBE 16 (x + 1) ∧ t.2 = toBE 16 (y + 1)) ?_).congr
          ?_ fun _ _ h => h
        · rintro V V' hV
          refine CT.bind (CT_AES256_ECB _ _ _ _ _ _ _ _ _) fun _ _ => CT.bind (CT.branch _) fun _ _ => ?_
          rw [dif_neg h2, dif_neg h2]
          exact CT.bind (CT.memcpy _ _ _ _ _ _ _) fun _ _ => R2.pure hV
        · constructor
          · intro h3 j hj
            rw [show j = 0 by omega]; exact h3
          · exact fun h3 => h3 0 (by omega)
    · rw [dif_neg h, dif_neg h]
      have hb : blocks n = 0 := by unfold blocks; omega
      rw [hb]
      exact (R2.exact (R2.pure ⟨rfl, rfl⟩)).congr (by simp) fun _ _ h => h

theorem D_randombytes (F F' : Cipher) (b b' : List Byte) (off n : Nat) (ctx ctx' : DRBG) (hv : ctx.V.length = 16) (hv' : ctx'.V.length = 16) :
    D (randombytes F b off n ctx) (randombytes F' b' off n ctx')
      (∀ j, j < blocks n + 3 → wraps 16 (ofBE ctx.V + j) = wraps 16 (ofBE ctx'.V + j)) fun _ _ => True := by
  unfold randombytes
  have e1 := toBE_ofBE ctx.V
  have e2 := toBE_ofBE ctx'.V
  rw [hv] at e1
  rw [hv'] at e2
  generalize ofBE ctx.V = x at *
  generalize ofBE ctx'.V = y at *
  rw [← e1, ← e2]
  refine (D.bind (C' := ∀ i, i < 3 → wraps 16 (x + blocks n + i) = wraps 16 (y + blocks n + i)) (D_randombytesLoop F F' _ _ off n x y b b' 0)
    ?_).congr ?_ fun _ _ h => h
  · rintro ⟨o, V⟩ ⟨o', V'⟩ ⟨h1, h2⟩
    dsimp only at h1 h2 ⊢
    subst h1 h2
    exact D.then (D_Update F F' none none rfl _ _ _ _) fun _ _ _ => CT.bind (CT.iadd _ _ _ _) fun _ _ => CT.pure _ _
  · constructor
    · rintro ⟨h1, h2⟩ j hj
      by_cases h : j < blocks n
      · exact h1 j h
      · have := h2 (j - blocks n) (by omega)
        rwa [Nat.add_assoc, Nat.add_assoc, Nat.add_sub_cancel' (by omega)] at this
    · intro h
      refine ⟨fun j hj => h j (by omega), fun i hi => ?_⟩
      have := h (blocks n + i) (by omega)
      rwa [← Nat.add_assoc, ← Nat.add_assoc] at this

theorem CT_randombytes_init (F F' : Cipher) (e e' : List Byte) (p p' : Option (List Byte)) (h : p.isSome = p'.isSome) (ctx ctx' : DRBG)
    (hv : ctx.V.length = 16) (hv' : ctx'.V.length = 16) : CT (randombytes_init F e p ctx) (randombytes_init F' e' p' ctx') := by
  unfold randombytes_init
  have key : ∀ V : List Byte, V.length = 16 → ∀ V', Saber.memset V 0 0 16 = .ok V' → V' = toBE 16 0 := by
    intro V hV V' h'
    rw [memset_ok _ _ _ _ (by omega), writeAt_full _ _ (by simp [hV])] at h'
    rw [← Except.ok.inj h']
    decide
  refine CT.bind (CT.memcpy _ _ _ _ _ _ _) fun _ _ => CT.bind (CT_xorData _ _ _ _ h) fun s s' => CT.bind (CT.memset _ _ _ _ _ _) fun K K' => ?_
  refine R2.bind (Q := fun V V' => V = toBE 16 0 ∧ V' = toBE 16 0) ⟨fun a b ha hb => ⟨?_, ?_⟩⟩ ?_
  · exact ((CT.memset ctx.V ctx'.V 0 0 0 16).same a b ha hb).1
  · have e1 : (memset ctx.V 0 0 16).out = _ := E.memset ctx.V 0 0 16
    have e2 : (memset ctx'.V 0 0 16).out = _ := E.memset ctx'.V 0 0 16
    rw [e1] at ha
    rw [e2] at hb
    exact ⟨key _ hv _ ha, key _ hv' _ hb⟩
  · rintro V V' ⟨rfl, rfl⟩
    refine CT.bind ⟨fun a b ha hb => ⟨?_, trivial⟩⟩ fun _ _ => CT.pure _ _
    have := ((D_Update F F' (some s) (some s') rfl K K' 0 0).same a b ha hb).1 [] []
    rw [List.append_nil, List.append_nil] at this
    exact this.mpr ⟨fun _ _ => rfl, rfl⟩

/-! ### The seed expander -/

theorem R2_incCtr_self (V : List Byte) (lo k : Nat) : R2 (incCtr V lo k) (incCtr V lo k) fun a b => a = b := by
  refine ⟨fun a b ha hb => ⟨rfl, ?_⟩⟩
  rw [ha] at hb
  exact Except.ok.inj hb

/-- What an observer of the seed expander is assumed to know. -/
def XofPublic (a b : AESXOF) : Prop := a.buffer_pos = b.buffer_pos ∧ a.length_remaining = b.length_remaining ∧ a.ctr = b.ctr

theorem R2_seedexpanderLoop (F F' : Cipher) (ctx : AESXOF) (x : List Byte) (offset xlen : Nat) : ∀ (ctx' : AESXOF) (x' : List Byte),
    XofPublic ctx ctx' → R2 (seedexpanderLoop F ctx x offset xlen) (seedexpanderLoop F' ctx' x' offset xlen) fun s t => XofPublic s.1 t.1 := by
  induction ctx, x, offset, xlen using Saber.seedexpanderLoop.induct with
  | case1 ctx x off xlen h h2 =>
    rintro ctx' x' ⟨e1, e2, e3⟩
    unfold seedexpanderLoop
    rw [← e1]
    refine CT.bind (CT.branch _) fun _ _ => ?_
    rw [dif_pos h, dif_pos h]
    refine CT.bind (CT.branch _) fun _ _ => ?_
    rw [dif_pos h2, dif_pos h2]
    exact CT.bind (CT.memcpy _ _ _ _ _ _ _) fun _ _ => R2.pure ⟨by dsimp only, e2, e3⟩
  | case2 ctx x off xlen h h2 ih =>
    rintro ctx' x' ⟨e1, e2, e3⟩
    unfold seedexpanderLoop
    rw [← e1]
    refine CT.bind (CT.branch _) fun _ _ => ?_
    rw [dif_pos h, dif_pos h]
    refine CT.bind (CT.branch _) fun _ _ => ?_
    rw [dif_neg h2, dif_neg h2]
    refine CT.bind (CT.memcpy _ _ _ _ _ _ _) fun _ _ => CT.bind (CT_AES256_ECB _ _ _ _ _ _ _ _ _) fun b b' => ?_
    rw [← e3]
    refine R2.bind (R2_incCtr_self _ _ _) ?_
    rintro c _ rfl
    exact ih _ _ _ _ _ ⟨rfl, e2, rfl⟩
  | case3 ctx x off xlen h =>
    rintro ctx' x' e
    unfold seedexpanderLoop
    refine CT.bind (CT.branch _) fun _ _ => ?_
    rw [dif_neg h, dif_neg h]
    exact R2.pure e

theorem R2_seedexpander (F F' : Cipher) (ctx ctx' : AESXOF) (h : XofPublic ctx ctx') (x x' : Option (List Byte)) (hx : x.isNone = x'.isNone)
    (xlen : Nat) : R2 (seedexpander F ctx x xlen) (seedexpander F' ctx' x' xlen) fun s t => s.1 = t.1 ∧ XofPublic s.2.1 t.2.1 := by
  unfold seedexpander
  rw [hx]
  refine CT.bind (CT.branch _) fun _ _ => ?_
  cases x <;> cases x' <;> try cases hx
  · exact R2.pure ⟨rfl, h⟩
  · dsimp only
    rw [← h.2.1]
    refine CT.bind (CT.branch _) fun _ _ => ?_
    apply R2.ite
    · exact R2.pure ⟨rfl, h⟩
    · refine R2.bind (R2_seedexpanderLoop F F' _ _ _ _ _ _ ⟨h.1, rfl, h.2.2⟩) ?_
      rintro ⟨s, o⟩ ⟨t, o'⟩ hst
      exact R2.pure ⟨rfl, hst⟩

end Saber.Leak
