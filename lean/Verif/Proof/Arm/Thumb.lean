import Verif.Proof.Arm.Interleave
/-!
# Reasoning about the machine of `Model/Arm/Thumb.lean`
-/
namespace Saber.Thumb
open Arm (Reg)

/-! ### Words as numbers -/

theorem ofNat_sub (a b : Nat) (h : b ≤ a) (ha : a < 2 ^ 32) : BitVec.ofNat 32 a - BitVec.ofNat 32 b = BitVec.ofNat 32 (a - b) := by
  apply BitVec.eq_of_toNat_eq
  simp only [BitVec.toNat_sub, BitVec.toNat_ofNat]
  omega

theorem ofNat_add' (a b : Nat) : BitVec.ofNat 32 a + BitVec.ofNat 32 b = BitVec.ofNat 32 (a + b) := (BitVec.ofNat_add a b).symm

theorem toNat_ofNat' (a : Nat) (ha : a < 2 ^ 32) : (BitVec.ofNat 32 a).toNat = a := by
  rw [BitVec.toNat_ofNat, Nat.mod_eq_of_lt ha]

theorem ofNat_beq_zero (a : Nat) (ha : a < 2 ^ 32) : (BitVec.ofNat 32 a == (0 : W)) = decide (a = 0) := by
  have : (BitVec.ofNat 32 a = (0 : W)) ↔ a = 0 := by
    rw [← BitVec.toNat_inj, toNat_ofNat' a ha]; rfl
  by_cases h : a = 0
  · subst h; rfl
  · rw [decide_eq_false h]; exact beq_eq_false_iff_ne.2 fun e => h (this.1 e)

/-! ### Registers -/

@[simp] theorem upd_same (r : Reg → W) (d : Reg) (v : W) : upd r d v d = v := if_pos rfl
theorem upd_ne (r : Reg → W) {d x : Reg} (v : W) (h : x ≠ d) : upd r d v x = r x := if_neg h

/-! ### Memory -/

/-- Outside of `S` the memory is the same, and the same bytes are accessible. -/
structure Fr (S : Nat → Prop) (m m' : Mem) : Prop where
  keep : ∀ x, ¬ S x → m' x = m x
  acc : ∀ x, (m' x).isSome = (m x).isSome

theorem Fr.refl (S : Nat → Prop) (m : Mem) : Fr S m m := ⟨fun _ _ => rfl, fun _ => rfl⟩

theorem Fr.trans {S S' S'' : Nat → Prop} {m m' m'' : Mem} (h : Fr S m m') (h' : Fr S' m' m'') (h1 : ∀ x, S x → S'' x) (h2 : ∀ x, S' x → S'' x) :
    Fr S'' m m'' :=
  ⟨fun x hx => (h'.keep x fun h => hx (h2 x h)).trans (h.keep x fun h => hx (h1 x h)), fun x => (h'.acc x).trans (h.acc x)⟩

theorem Fr.mono {S S' : Nat → Prop} {m m' : Mem} (h : Fr S m m') (h1 : ∀ x, S x → S' x) : Fr S' m m' :=
  ⟨fun x hx => h.keep x fun h => hx (h1 x h), h.acc⟩

theorem ld32_some {m : Mem} {a : Nat} {v : W} (h : ld32 m a = some v) :
    a % 4 = 0 ∧ ∃ b0 b1 b2 b3, m a = some b0 ∧ m (a + 1) = some b1 ∧ m (a + 2) = some b2 ∧ m (a + 3) = some b3 ∧ v = cat b0 b1 b2 b3 := by
  unfold ld32 at h
  split at h
  · next h4 =>
    split at h
    · next h0 h1 h2 h3 => exact ⟨h4, _, _, _, _, h0, h1, h2, h3, (Option.some.inj h).symm⟩
    · cases h
  · cases h

theorem ld32_of {m : Mem} {a : Nat} {b0 b1 b2 b3 : Byte} (h : a % 4 = 0) (h0 : m a = some b0) (h1 : m (a + 1) = some b1) (h2 : m (a + 2) = some b2)
    (h3 : m (a + 3) = some b3) : ld32 m a = some (cat b0 b1 b2 b3) := by
  unfold ld32
  rw [if_pos h, h0, h1, h2, h3]

theorem ld32_acc {m : Mem} {a : Nat} {v : W} (h : ld32 m a = some v) : a % 4 = 0 ∧ ∀ i, i < 4 → (m (a + i)).isSome := by
  obtain ⟨h4, b0, b1, b2, b3, h0, h1, h2, h3, -⟩ := ld32_some h
  refine ⟨h4, fun i hi => ?_⟩
  match i, hi with
  | 0, _ => rw [Nat.add_zero, h0]; rfl
  | 1, _ => rw [h1]; rfl
  | 2, _ => rw [h2]; rfl
  | 3, _ => rw [h3]; rfl

theorem ld32_congr {m m' : Mem} {a : Nat} (h : ∀ i, i < 4 → m' (a + i) = m (a + i)) : ld32 m' a = ld32 m a := by
  unfold ld32
  have h0 := h 0 (by omega)
  rw [Nat.add_zero] at h0
  rw [h0, h 1 (by omega), h 2 (by omega), h 3 (by omega)]

theorem Fr.ld32 {S : Nat → Prop} {m m' : Mem} (h : Fr S m m') {a : Nat} (ha : ∀ i, i < 4 → ¬ S (a + i)) : ld32 m' a = ld32 m a :=
  ld32_congr fun i hi => h.keep _ (ha i hi)

theorem getLsbD_cat (b0 b1 b2 b3 : Byte) (i : Nat) : (cat b0 b1 b2 b3).getLsbD i =
    if i < 8 then b0.getLsbD i else if i < 16 then b1.getLsbD (i - 8) else if i < 24 then b2.getLsbD (i - 16) else b3.getLsbD (i - 24) := by
  unfold cat
  rw [BitVec.getLsbD_append, BitVec.getLsbD_append, BitVec.getLsbD_append]
  by_cases h0 : i < 8
  · rw [if_pos (by omega : i < 8 + 8), if_pos h0, if_pos h0]
  by_cases h1 : i < 16
  · rw [if_pos (by omega : i < 8 + 8), if_neg h0, if_neg h0, if_pos h1]
  rw [if_neg (by omega : ¬ i < 8 + 8), if_neg h0, if_neg h1]
  by_cases h2 : i < 24
  · rw [if_pos (by omega : i - (8 + 8) < 8), if_pos h2]
  · rw [if_neg (by omega : ¬ i - (8 + 8) < 8), if_neg h2, Nat.sub_sub]

theorem cat_byteOf (v : W) : cat (byteOf v 0) (byteOf v 1) (byteOf v 2) (byteOf v 3) = v := by
  apply BitVec.eq_of_getLsbD_eq
  intro i hi
  rw [getLsbD_cat]
  simp only [byteOf, BitVec.getLsbD_extractLsb']
  split
  · next h => simp [h]
  split
  · next h => rw [decide_eq_true (by omega : i - 8 < 8), Bool.true_and]; congr 1; omega
  split
  · next h => rw [decide_eq_true (by omega : i - 16 < 8), Bool.true_and]; congr 1; omega
  · next h => rw [decide_eq_true (by omega : i - 24 < 8), Bool.true_and]; congr 1; omega

theorem st32_ok {m : Mem} {a : Nat} (v : W) (h : a % 4 = 0) (hacc : ∀ i, i < 4 → (m (a + i)).isSome) :
    ∃ m', st32 m a v = some m' ∧ ld32 m' a = some v ∧ Fr (fun x => a ≤ x ∧ x < a + 4) m m' := by
  have e := hacc 0 (by omega)
  rw [Nat.add_zero] at e
  refine ⟨_, by unfold st32; rw [if_pos ⟨h, e, hacc 1 (by omega), hacc 2 (by omega), hacc 3 (by omega)⟩], ?_, ?_, ?_⟩
  · rw [ld32_of h (b0 := byteOf v 0) (b1 := byteOf v 1) (b2 := byteOf v 2) (b3 := byteOf v 3), cat_byteOf]
    · rw [if_pos ⟨by omega, by omega⟩, Nat.sub_self]
    · rw [if_pos ⟨by omega, by omega⟩, Nat.add_sub_cancel_left]
    · rw [if_pos ⟨by omega, by omega⟩, Nat.add_sub_cancel_left]
    · rw [if_pos ⟨by omega, by omega⟩, Nat.add_sub_cancel_left]
  · intro x hx
    exact if_neg hx
  · intro x
    split
    · next hx =>
      have := hacc (x - a) (by omega)
      rw [show a + (x - a) = x by omega] at this
      rw [this]; rfl
    · rfl

theorem st8_ok {m : Mem} {a : Nat} (v : Byte) (h : (m a).isSome) :
    ∃ m', st8 m a v = some m' ∧ m' a = some v ∧ Fr (fun x => x = a) m m' := by
  refine ⟨_, by unfold st8; rw [if_pos h], if_pos rfl, fun x hx => if_neg hx, fun x => ?_⟩
  split
  · next hx => subst hx; rw [h]; rfl
  · rfl

theorem stRegs_ok (r : Reg → W) : ∀ (l : List Reg) (a : Nat) (m : Mem), a % 4 = 0 → a + 4 * l.length ≤ 2 ^ 32 →
    (∀ x, a ≤ x → x < a + 4 * l.length → (m x).isSome) →
    ∃ m', stRegs r (BitVec.ofNat 32 a) l m = some m' ∧ Fr (fun x => a ≤ x ∧ x < a + 4 * l.length) m m' ∧
      ∀ i (h : i < l.length), ld32 m' (a + 4 * i) = some (r l[i])
  | [], a, m, _, _, _ => ⟨m, rfl, Fr.refl _ _, fun i h => absurd h (by simp)⟩
  | x :: l, a, m, h4, hb, hacc => by
    rw [List.length_cons] at hb hacc
    obtain ⟨m1, e1, l1, f1⟩ := st32_ok (m := m) (a := a) (r x) h4 fun i hi => hacc _ (by omega) (by omega)
    obtain ⟨m2, e2, f2, l2⟩ := stRegs_ok r l (a + 4) m1 (by omega) (by omega) fun y hy hy' => by rw [f1.acc]; exact hacc y (by omega) (by omega)
    refine ⟨m2, ?_, ?_, ?_⟩
    · unfold stRegs
      rw [toNat_ofNat' a (by omega), e1]
      rw [← e2, ← ofNat_add' a 4]; rfl
    · refine f1.trans f2 (fun y hy => ?_) fun y hy => ?_ <;> rw [List.length_cons] <;> omega
    · intro i hi
      match i, hi with
      | 0, _ =>
        rw [Nat.mul_zero, Nat.add_zero, f2.ld32 (fun i hi => by omega), l1]; rfl
      | i + 1, hi =>
        have := l2 i (by rw [List.length_cons] at hi; omega)
        rw [show a + 4 * (i + 1) = a + 4 + 4 * i by omega, this]; rfl

theorem ldRegs_ok (m : Mem) : ∀ (l : List Reg) (a : Nat) (r : Reg → W) (v : Nat → W), l.Nodup → a + 4 * l.length ≤ 2 ^ 32 →
    (∀ i, i < l.length → ld32 m (a + 4 * i) = some (v i)) →
    ∃ r', ldRegs m (BitVec.ofNat 32 a) l r = some r' ∧ (∀ i (h : i < l.length), r' l[i] = v i) ∧ ∀ x, x ∉ l → r' x = r x
  | [], a, r, v, _, _, _ => ⟨r, rfl, fun i h => absurd h (by simp), fun _ _ => rfl⟩
  | x :: l, a, r, v, hn, hb, h => by
    rw [List.length_cons] at hb h
    obtain ⟨n1, n2⟩ := List.nodup_cons.1 hn
    obtain ⟨r', e, h1, h2⟩ := ldRegs_ok m l (a + 4) (upd r x (v 0)) (fun i => v (i + 1)) n2 (by omega) fun i hi => by
      have := h (i + 1) (by omega)
      rwa [show a + 4 * (i + 1) = a + 4 + 4 * i by omega] at this
    have h0 := h 0 (by omega)
    rw [Nat.mul_zero, Nat.add_zero] at h0
    refine ⟨r', ?_, ?_, ?_⟩
    · unfold ldRegs
      rw [toNat_ofNat' a (by omega), h0]
      rw [← e, ← ofNat_add' a 4]; rfl
    · intro i hi
      match i, hi with
      | 0, _ => exact (h2 x n1).trans (upd_same _ _ _)
      | i + 1, hi => exact h1 i (by rw [List.length_cons] at hi; omega)
    · intro y hy
      rw [List.mem_cons, not_or] at hy
      rw [h2 y hy.2, upd_ne _ _ hy.1]

/-! ### Sequences of instructions -/

/-- The instructions `l` run from `s` and lead to a state with `Q`. -/
def Does (T : Tabs) (l : List Op) (s : St) (Q : St → Prop) : Prop := ∃ s', execs T l s = some s' ∧ Q s'

theorem Does.nil {T : Tabs} {s : St} {Q : St → Prop} (h : Q s) : Does T [] s Q := ⟨s, rfl, h⟩

theorem Does.cons {T : Tabs} {i : Op} {l : List Op} {s s' : St} {Q : St → Prop} (e : exec1 T i s = some s') (h : Does T l s' Q) :
    Does T (i :: l) s Q := by
  obtain ⟨s'', e', hq⟩ := h
  refine ⟨s'', ?_, hq⟩
  unfold execs
  rw [e]
  exact e'

theorem Does.append {T : Tabs} {l l' : List Op} {s : St} {Q : St → Prop} (h : Does T l s fun s' => Does T l' s' Q) : Does T (l ++ l') s Q := by
  induction l generalizing s with
  | nil =>
    obtain ⟨s', e, h⟩ := h
    cases e
    exact h
  | cons i l ih =>
    obtain ⟨s', e, h⟩ := h
    unfold execs at e
    cases h1 : exec1 T i s with
    | none => rw [h1] at e; cases e
    | some s1 =>
      rw [h1] at e
      exact Does.cons h1 (ih ⟨s', e, h⟩)

theorem Does.mono {T : Tabs} {l : List Op} {s : St} {Q Q' : St → Prop} (h : Does T l s Q) (hq : ∀ s', Q s' → Q' s') : Does T l s Q' := by
  obtain ⟨s', e, h⟩ := h
  exact ⟨s', e, hq s' h⟩

/-- The machine gets from `c` to a configuration with `Q`. -/
def To {L : Type} (P : Prog L) (c : Conf L) (Q : Conf L → Prop) : Prop := ∃ c', P.Reach c c' ∧ Q c'

theorem To.here {L : Type} {P : Prog L} {c : Conf L} {Q : Conf L → Prop} (h : Q c) : To P c Q := ⟨c, .refl c, h⟩

theorem To.step {L : Type} {P : Prog L} {c c' : Conf L} {Q : Conf L → Prop} (e : P.step c = some c') (h : To P c' Q) : To P c Q := by
  obtain ⟨c'', r, hq⟩ := h
  exact ⟨c'', .step e r, hq⟩

theorem Reach.trans {L : Type} {P : Prog L} {c c' c'' : Conf L} (h : P.Reach c c') (h' : P.Reach c' c'') : P.Reach c c'' := by
  induction h with
  | refl => exact h'
  | step e _ ih => exact .step e (ih h')

theorem To.bind {L : Type} {P : Prog L} {c : Conf L} {Q Q' : Conf L → Prop} (h : To P c Q) (h' : ∀ c', Q c' → To P c' Q') : To P c Q' := by
  obtain ⟨c', r, hq⟩ := h
  obtain ⟨c'', r', hq'⟩ := h' c' hq
  exact ⟨c'', Reach.trans r r', hq'⟩

theorem To.ops {P : Prog Lab} {l : List Op} {k : List I} {s : St} {Q : Conf Lab → Prop} (h : Does P.tabs l s fun s' => To P (.run k s') Q) :
    To P (.run (ops l ++ k) s) Q := by
  induction l generalizing s with
  | nil =>
    obtain ⟨s', e, h⟩ := h
    cases e
    exact h
  | cons i l ih =>
    obtain ⟨s', e, h⟩ := h
    unfold execs at e
    cases h1 : exec1 P.tabs i s with
    | none => rw [h1] at e; cases e
    | some s1 =>
      rw [h1] at e
      refine To.step (c' := .run (Thumb.ops l ++ k) s1) ?_ (ih ⟨s', e, h⟩)
      show (exec1 P.tabs i s).map (Conf.run _) = _
      rw [h1]; rfl

/-! ### The macros -/

/-- A table of words at the address `a`. -/
def Table (m : Mem) (a : W) (l : List W) : Prop := ∀ i, i < l.length → ld32 m (a + BitVec.ofNat 32 (4 * i)).toNat = some (l.getD i 0)

theorem squeezeR_ok (T : Tabs) (out t p : Reg) (o k : Nat) (s : St) (mask : W) (h1 : out ≠ t)
    (hm : ld32 s.m (s.r p + BitVec.ofNat 32 o).toNat = some mask) :
    Does T (squeezeR out t p o k) s fun s' => s'.r out = sqR mask k (s.r out) ∧ (∀ x, x ≠ out → x ≠ t → s'.r x = s.r x) ∧ s'.m = s.m := by
  unfold squeezeR
  refine Does.cons (s' := { s with r := upd s.r t mask }) (by unfold exec1; dsimp only; rw [hm]) ?_
  refine Does.cons rfl (Does.cons rfl (Does.cons rfl (Does.nil ⟨?_, ?_, rfl⟩)))
  · simp only [St.res, Alu.eval, sqR, upd_same, upd_ne _ _ h1]
  · intro x h3 h4
    simp only [St.res, upd_ne _ _ h3, upd_ne _ _ h4]

theorem squeezeL_ok (T : Tabs) (out t p : Reg) (o k : Nat) (s : St) (mask : W) (h1 : out ≠ t)
    (hm : ld32 s.m (s.r p + BitVec.ofNat 32 o).toNat = some mask) :
    Does T (squeezeL out t p o k) s fun s' => s'.r out = sqL mask k (s.r out) ∧ (∀ x, x ≠ out → x ≠ t → s'.r x = s.r x) ∧ s'.m = s.m := by
  unfold squeezeL
  refine Does.cons (s' := { s with r := upd s.r t mask }) (by unfold exec1; dsimp only; rw [hm]) ?_
  refine Does.cons rfl (Does.cons rfl (Does.cons rfl (Does.nil ⟨?_, ?_, rfl⟩)))
  · simp only [St.res, Alu.eval, sqL, upd_same, upd_ne _ _ h1]
  · intro x h3 h4
    simp only [St.res, upd_ne _ _ h3, upd_ne _ _ h4]

/-- Four squeezes to the right. -/
theorem squeezeR4 (T : Tabs) (out t p : Reg) (s : St) (l : List Op) (Q : St → Prop) (h1 : out ≠ t) (h2 : p ≠ t) (h3 : p ≠ out)
    (ht : Table s.m (s.r p) toConstants)
    (h : ∀ s', s'.r out = lowHalf (s.r out) → (∀ x, x ≠ out → x ≠ t → s'.r x = s.r x) → s'.m = s.m → Does T l s' Q) :
    Does T (squeezeR out t p 0 1 ++ (squeezeR out t p 4 2 ++ (squeezeR out t p 8 4 ++ (squeezeR out t p 12 8 ++ l)))) s Q := by
  refine Does.append ((squeezeR_ok T out t p 0 1 s 0x55555555 h1 (ht 0 (by decide))).mono ?_)
  rintro s1 ⟨a1, b1, c1⟩
  refine Does.append ((squeezeR_ok T out t p 4 2 s1 0x33333333 h1 (by rw [c1, b1 p h3 h2]; exact ht 1 (by decide))).mono ?_)
  rintro s2 ⟨a2, b2, c2⟩
  refine Does.append ((squeezeR_ok T out t p 8 4 s2 0x0F0F0F0F h1 (by rw [c2, b2 p h3 h2, c1, b1 p h3 h2]; exact ht 2 (by decide))).mono ?_)
  rintro s3 ⟨a3, b3, c3⟩
  refine Does.append ((squeezeR_ok T out t p 12 8 s3 0x00FF00FF h1
    (by rw [c3, b3 p h3 h2, c2, b2 p h3 h2, c1, b1 p h3 h2]; exact ht 3 (by decide))).mono ?_)
  rintro s4 ⟨a4, b4, c4⟩
  refine h s4 (by rw [a4, a3, a2, a1]; rfl) (fun x hx hx' => ?_) ?_
  · rw [b4 x hx hx', b3 x hx hx', b2 x hx hx', b1 x hx hx']
  · rw [c4, c3, c2, c1]

/-- Four squeezes to the left. -/
theorem squeezeL4 (T : Tabs) (out t p : Reg) (s : St) (l : List Op) (Q : St → Prop) (h1 : out ≠ t) (h2 : p ≠ t) (h3 : p ≠ out)
    (ht : Table s.m (s.r p) toConstants)
    (h : ∀ s', s'.r out = highHalf (s.r out) → (∀ x, x ≠ out → x ≠ t → s'.r x = s.r x) → s'.m = s.m → Does T l s' Q) :
    Does T (squeezeL out t p 16 1 ++ (squeezeL out t p 20 2 ++ (squeezeL out t p 24 4 ++ (squeezeL out t p 28 8 ++ l)))) s Q := by
  refine Does.append ((squeezeL_ok T out t p 16 1 s 0xAAAAAAAA h1 (ht 4 (by decide))).mono ?_)
  rintro s1 ⟨a1, b1, c1⟩
  refine Does.append ((squeezeL_ok T out t p 20 2 s1 0xCCCCCCCC h1 (by rw [c1, b1 p h3 h2]; exact ht 5 (by decide))).mono ?_)
  rintro s2 ⟨a2, b2, c2⟩
  refine Does.append ((squeezeL_ok T out t p 24 4 s2 0xF0F0F0F0 h1 (by rw [c2, b2 p h3 h2, c1, b1 p h3 h2]; exact ht 6 (by decide))).mono ?_)
  rintro s3 ⟨a3, b3, c3⟩
  refine Does.append ((squeezeL_ok T out t p 28 8 s3 0xFF00FF00 h1
    (by rw [c3, b3 p h3 h2, c2, b2 p h3 h2, c1, b1 p h3 h2]; exact ht 7 (by decide))).mono ?_)
  rintro s4 ⟨a4, b4, c4⟩
  refine h s4 (by rw [a4, a3, a2, a1]; rfl) (fun x hx hx' => ?_) ?_
  · rw [b4 x hx hx', b3 x hx hx', b2 x hx hx', b1 x hx hx']
  · rw [c4, c3, c2, c1]

theorem toBitInterleaving_ok (T : Tabs) (in0 in1 out0 out1 t tt p : Reg) (s : St) (hn : [in0, in1, out0, out1, t, tt, p].Nodup)
    (ht : Table s.m (s.r p) toConstants) :
    Does T (toBitInterleaving in0 in1 out0 out1 t tt p) s fun s' => s'.r out0 = evens (s.r in0) (s.r in1) ∧ s'.r out1 = odds (s.r in0) (s.r in1) ∧
      (∀ x, x ≠ out0 → x ≠ out1 → x ≠ t → x ≠ tt → s'.r x = s.r x) ∧ s'.m = s.m := by
  simp only [List.nodup_cons, List.mem_cons, not_or, List.not_mem_nil, not_false_eq_true, List.nodup_nil, and_true] at hn
  obtain ⟨⟨n1, n2, n3, n4, n5, n6⟩, ⟨n7, n8, n9, n10, n11⟩, ⟨n12, n13, n14, n15⟩, ⟨n16, n17, n18⟩, ⟨n19, n20⟩, n21⟩ := hn
  unfold toBitInterleaving
  refine Does.cons rfl ?_
  refine squeezeR4 T out0 t p _ _ _ n13 (Ne.symm n20) (Ne.symm n15) (by rw [show ({ s with r := upd s.r out0 (s.r in0) } : St).r p = s.r p from upd_ne _ _ (Ne.symm n15)]; exact ht) ?_
  intro s1 a1 b1 c1
  replace a1 : s1.r out0 = lowHalf (s.r in0) := a1.trans (congrArg lowHalf (upd_same _ _ _))
  replace b1 : ∀ x, x ≠ out0 → x ≠ t → s1.r x = s.r x := fun x h h' => (b1 x h h').trans (upd_ne _ _ h)
  replace c1 : s1.m = s.m := c1
  refine Does.cons rfl ?_
  refine squeezeR4 T out1 t p _ _ _ n16 (Ne.symm n20) (Ne.symm n18) ?_ ?_
  · show Table s1.m (upd s1.r out1 (s1.r in1) p) _
    rw [c1, upd_ne _ _ (Ne.symm n18), b1 p (Ne.symm n15) (Ne.symm n20)]; exact ht
  intro s2 a2 b2 c2
  replace a2 : s2.r out1 = lowHalf (s.r in1) := by
    rw [a2]; show lowHalf (upd s1.r out1 (s1.r in1) out1) = _
    rw [upd_same, b1 in1 n7 n9]
  replace b2 : ∀ x, x ≠ out1 → x ≠ t → s2.r x = s1.r x := fun x h h' => (b2 x h h').trans (upd_ne _ _ h)
  replace c2 : s2.m = s.m := c2.trans c1
  refine Does.append (Does.cons rfl (Does.cons rfl (Does.cons rfl (Does.cons rfl (Does.nil ?_)))))
  generalize hs3 : (St.res _ out0 _ : St) = s3
  have a3 : s3.r out0 = evens (s.r in0) (s.r in1) := by
    rw [← hs3]
    simp only [St.res, Alu.eval, upd_same, upd_ne _ _ n12, upd_ne _ _ (Ne.symm n12)]
    rw [a2, b2 out0 n12 n13, a1]; rfl
  have b3 : ∀ x, x ≠ out0 → x ≠ out1 → s3.r x = s2.r x := fun x h h' => by
    rw [← hs3]; simp only [St.res, upd_ne _ _ h, upd_ne _ _ h']
  have c3 : s3.m = s.m := by rw [← hs3]; exact c2
  refine Does.cons rfl ?_
  refine squeezeL4 T out1 t p _ _ _ n16 (Ne.symm n20) (Ne.symm n18) ?_ ?_
  · show Table s3.m (upd s3.r out1 (s3.r in0) p) _
    rw [c3, upd_ne _ _ (Ne.symm n18), b3 p (Ne.symm n15) (Ne.symm n18), b2 p (Ne.symm n18) (Ne.symm n20), b1 p (Ne.symm n15) (Ne.symm n20)]; exact ht
  intro s4 a4 b4 c4
  replace a4 : s4.r out1 = highHalf (s.r in0) := by
    rw [a4]; show highHalf (upd s3.r out1 (s3.r in0) out1) = _
    rw [upd_same, b3 in0 n2 n3, b2 in0 n3 n4, b1 in0 n2 n4]
  replace b4 : ∀ x, x ≠ out1 → x ≠ t → s4.r x = s3.r x := fun x h h' => (b4 x h h').trans (upd_ne _ _ h)
  replace c4 : s4.m = s.m := c4.trans c3
  refine Does.cons rfl ?_
  refine squeezeL4 T tt t p _ _ _ (Ne.symm n19) (Ne.symm n20) (Ne.symm n21) ?_ ?_
  · show Table s4.m (upd s4.r tt (s4.r in1) p) _
    rw [c4, upd_ne _ _ (Ne.symm n21), b4 p (Ne.symm n18) (Ne.symm n20), b3 p (Ne.symm n15) (Ne.symm n18), b2 p (Ne.symm n18) (Ne.symm n20),
      b1 p (Ne.symm n15) (Ne.symm n20)]; exact ht
  intro s5 a5 b5 c5
  replace a5 : s5.r tt = highHalf (s.r in1) := by
    rw [a5]; show highHalf (upd s4.r tt (s4.r in1) tt) = _
    rw [upd_same, b4 in1 n8 n9, b3 in1 n7 n8, b2 in1 n8 n9, b1 in1 n7 n9]
  replace b5 : ∀ x, x ≠ tt → x ≠ t → s5.r x = s4.r x := fun x h h' => (b5 x h h').trans (upd_ne _ _ h)
  replace c5 : s5.m = s.m := c5.trans c4
  refine Does.cons rfl (Does.cons rfl (Does.cons rfl (Does.cons rfl (Does.nil ⟨?_, ?_, ?_, c5⟩))))
  · simp only [St.res, upd_ne _ _ n12, upd_ne _ _ n14]
    rw [b5 out0 n14 n13, b4 out0 n12 n13, a3]
  · simp only [St.res, Alu.eval, upd_same, upd_ne _ _ n17, upd_ne _ _ (Ne.symm n17)]
    rw [a5, b5 out1 n17 n16, a4]; rfl
  · intro x h1 h2 h3 h4
    simp only [St.res, upd_ne _ _ h2, upd_ne _ _ h4]
    rw [b5 x h4 h3, b4 x h2 h3, b3 x h1 h2, b2 x h2 h3, b1 x h1 h3]

theorem unStep_ok (T : Tabs) (x t tt p : Reg) (o k : Nat) (s : St) (mask : W) (l : List Op) (Q : St → Prop) (h1 : x ≠ t) (h2 : x ≠ tt) (h3 : t ≠ tt)
    (h4 : p ≠ t) (hm : ld32 s.m (s.r p + BitVec.ofNat 32 o).toNat = some mask)
    (h : ∀ s', s'.r x = unStep mask k (s.r x) → (∀ y, y ≠ x → y ≠ t → y ≠ tt → s'.r y = s.r y) → s'.m = s.m → Does T l s' Q) :
    Does T (fromBitInterleavingStep x t tt p o k ++ l) s Q := by
  unfold fromBitInterleavingStep
  refine Does.append ?_
  refine Does.cons rfl (Does.cons rfl ?_)
  refine Does.cons (s' := { (s.res t (s.r x >>> k)).res t ((s.r x >>> k) ^^^ s.r x) with r := upd ((s.res t (s.r x >>> k)).res t ((s.r x >>> k) ^^^ s.r x)).r tt mask }) ?_ ?_
  · unfold exec1
    simp only [St.res, Alu.eval, upd_same, upd_ne _ _ h1, upd_ne _ _ h4]
    rw [hm]
  refine Does.cons rfl (Does.cons rfl (Does.cons rfl (Does.cons rfl (Does.nil ?_))))
  refine h _ ?_ ?_ rfl
  · simp only [St.res, Alu.eval, upd_same, upd_ne _ _ h1, upd_ne _ _ h2, upd_ne _ _ h3, upd_ne _ _ (Ne.symm h1), unStep]
  · intro y a b c
    simp only [St.res, upd_ne _ _ a, upd_ne _ _ b, upd_ne _ _ c]

/-- The four steps for one word. -/
theorem unStep4 (T : Tabs) (x t tt p : Reg) (s : St) (l : List Op) (Q : St → Prop) (h1 : x ≠ t) (h2 : x ≠ tt) (h3 : t ≠ tt)
    (h4 : p ≠ t) (h5 : p ≠ x) (h6 : p ≠ tt) (ht : Table s.m (s.r p) fromConstants)
    (h : ∀ s', s'.r x = unHalf (s.r x) → (∀ y, y ≠ x → y ≠ t → y ≠ tt → s'.r y = s.r y) → s'.m = s.m → Does T l s' Q) :
    Does T (fromBitInterleavingStep x t tt p 0 8 ++ (fromBitInterleavingStep x t tt p 4 4 ++ (fromBitInterleavingStep x t tt p 8 2 ++
      (fromBitInterleavingStep x t tt p 12 1 ++ l)))) s Q := by
  refine unStep_ok T x t tt p 0 8 s 0x0000FF00 _ _ h1 h2 h3 h4 (ht 0 (by decide)) fun s1 a1 b1 c1 => ?_
  refine unStep_ok T x t tt p 4 4 s1 0x00F000F0 _ _ h1 h2 h3 h4 (by rw [c1, b1 p h5 h4 h6]; exact ht 1 (by decide)) fun s2 a2 b2 c2 => ?_
  refine unStep_ok T x t tt p 8 2 s2 0x0C0C0C0C _ _ h1 h2 h3 h4 (by rw [c2, b2 p h5 h4 h6, c1, b1 p h5 h4 h6]; exact ht 2 (by decide)) fun s3 a3 b3 c3 => ?_
  refine unStep_ok T x t tt p 12 1 s3 0x22222222 _ _ h1 h2 h3 h4
    (by rw [c3, b3 p h5 h4 h6, c2, b2 p h5 h4 h6, c1, b1 p h5 h4 h6]; exact ht 3 (by decide)) fun s4 a4 b4 c4 => ?_
  refine h s4 (by rw [a4, a3, a2, a1]; rfl) (fun y a b c => ?_) (by rw [c4, c3, c2, c1])
  rw [b4 y a b c, b3 y a b c, b2 y a b c, b1 y a b c]

theorem fromBitInterleaving_ok (T : Tabs) (x0 x1 t tt p : Reg) (s : St) (hn : [x0, x1, t, tt, p].Nodup) (ht : Table s.m (s.r p) fromConstants) :
    Does T (fromBitInterleaving x0 x1 t tt p) s fun s' => s'.r x0 = unLow (s.r x0) (s.r x1) ∧ s'.r x1 = unHigh (s.r x0) (s.r x1) ∧
      (∀ y, y ≠ x0 → y ≠ x1 → y ≠ t → y ≠ tt → s'.r y = s.r y) ∧ s'.m = s.m := by
  simp only [List.nodup_cons, List.mem_cons, not_or, List.not_mem_nil, not_false_eq_true, List.nodup_nil, and_true] at hn
  obtain ⟨⟨n1, n2, n3, n4⟩, ⟨n5, n6, n7⟩, ⟨n8, n9⟩, n10⟩ := hn
  unfold fromBitInterleaving
  refine Does.append ?_
  refine Does.cons rfl (Does.cons rfl (Does.cons rfl (Does.cons rfl (Does.cons rfl (Does.cons rfl (Does.cons rfl (Does.cons rfl (Does.cons rfl (Does.nil ?_)))))))))
  generalize hs1 : (St.res _ x1 _ : St) = s1
  have a0 : s1.r x0 = ((s.r x0 <<< 16) >>> 16) ||| (s.r x1 <<< 16) := by
    rw [← hs1]
    simp only [St.res, Alu.eval, upd_same, upd_ne _ _ n1, upd_ne _ _ n2, upd_ne _ _ n3, upd_ne _ _ (Ne.symm n1), upd_ne _ _ n5]
  have a1 : s1.r x1 = ((s.r x1 >>> 16) <<< 16) ||| (s.r x0 >>> 16) := by
    rw [← hs1]
    simp only [St.res, Alu.eval, upd_same, upd_ne _ _ n5, upd_ne _ _ n6, upd_ne _ _ (Ne.symm n1), upd_ne _ _ n8, upd_ne _ _ (Ne.symm n2), upd_ne _ _ (Ne.symm n5)]
  have b1 : ∀ y, y ≠ x0 → y ≠ x1 → y ≠ t → y ≠ tt → s1.r y = s.r y := fun y a b c d => by
    rw [← hs1]; simp only [St.res, upd_ne _ _ a, upd_ne _ _ b, upd_ne _ _ c, upd_ne _ _ d]
  have c1 : s1.m = s.m := by rw [← hs1]; rfl
  refine unStep4 T x0 t tt p s1 _ _ n2 n3 n8 (Ne.symm n9) (Ne.symm n4) (Ne.symm n10)
    (by rw [c1, b1 p (Ne.symm n4) (Ne.symm n7) (Ne.symm n9) (Ne.symm n10)]; exact ht) fun s2 a2 b2 c2 => ?_
  have := unStep4 T x1 t tt p s2 [] (fun s' => s'.r x0 = unLow (s.r x0) (s.r x1) ∧ s'.r x1 = unHigh (s.r x0) (s.r x1) ∧
      (∀ y, y ≠ x0 → y ≠ x1 → y ≠ t → y ≠ tt → s'.r y = s.r y) ∧ s'.m = s.m) n5 n6 n8 (Ne.symm n9) (Ne.symm n7) (Ne.symm n10)
    (by rw [c2, b2 p (Ne.symm n4) (Ne.symm n9) (Ne.symm n10), c1, b1 p (Ne.symm n4) (Ne.symm n7) (Ne.symm n9) (Ne.symm n10)]; exact ht)
    fun s3 a3 b3 c3 => Does.nil ⟨?_, ?_, ?_, by rw [c3, c2, c1]⟩
  · rw [List.append_nil] at this; exact this
  · rw [b3 x0 n1 n2 n3, a2, a0]; rfl
  · rw [a3, b2 x1 (Ne.symm n1) n5 n6, a1]; rfl
  · intro y a b c d
    rw [b3 y b c d, b2 y a c d, b1 y a b c d]

end Saber.Thumb
