import Batteries.Tactic.SeqFocus
import Verif.Proof.Arm.Sim
import Verif.Model.Arm.Obs
/-!
# Runs of the machine and runs on a domain that does not know the data have the same events

Whenever a run of the machine and a run on such a domain complete, they have the same events.  Nothing is assumed about memory that the machine has
and the domain has not, or about unknown values.
-/
namespace Saber.Arm

/-- What the proof needs to know about the domain. -/
structure TSim (S : Dom) where
  RH : BitVec 16 → S.H → Prop
  RW : BitVec 32 → S.W → Prop
  lo : ∀ {x y}, RW x y → RH (clo x) (S.lo y)
  hi : ∀ {x y}, RW x y → RH (chi x) (S.hi y)
  join : ∀ {l l' h h'}, RH l l' → RH h h' → RW (h ++ l) (S.join l' h')
  zero : RH 0 S.zero
  const : ∀ n, RW (BitVec.ofNat 32 n) (S.const n)
  known : ∀ {x y n}, RW x y → S.known y = some n → x.toNat = n
  op1 : ∀ o {x y}, RW x y → RW (cop1 o x) (S.op1 o y)
  op2 : ∀ o {x y x' y'}, RW x y → RW x' y' → RW (cop2 o x x') (S.op2 o y y')
  op3 : ∀ o {x y x' y' x'' y''}, RW x y → RW x' y' → RW x'' y'' → RW (cop3 o x x' x'') (S.op3 o y y' y'')
  wr : ∀ {m o i c m'}, S.wr m o i c = some m' → ∀ o' i' d, S.rd m' o' i' = some d →
    if o' = o ∧ i' = i then d = c ∨ ∃ y z, c = .half y ∧ d = .half z ∧ ∀ x, RH x z else S.rd m o' i' = some d
  force : ∀ {α : Type} (x : S.W) (k : S.W → α), S.force x k = k x

variable {S : Dom}

namespace TSim

variable (R : TSim S)

/-- How the values of the machine are described. -/
def RV : CVal → Val S.W → Prop
  | v, .w y => ∃ x, v = .w x ∧ R.RW x y
  | _, .a (.opq _) => True
  | v, .a (.ptr o i) => v = .a (.ptr o i)
  | v, .a (.code n) => v = .a (.code n)
  | _, .undef => True

/-- How the contents of the memory are described. -/
def RC : CCell → Cell S.H → Prop
  | c, .half y => ∃ x, c = .half x ∧ R.RH x y
  | _, .frag (.opq _) _ => True
  | c, .frag (.ptr o i) b => c = .frag (.ptr o i) b
  | c, .frag (.code n) b => c = .frag (.code n) b
  | _, .undef => True

theorem RC_half {x : BitVec 16} {y : S.H} (h : R.RH x y) : R.RC (.half x) (.half y) := ⟨x, rfl, h⟩

/-- How memories are described. -/
def RM (m : conc.M) (m' : S.M) : Prop := ∀ o i c c', conc.rd m o i = some c → S.rd m' o i = some c' → R.RC c c'

/-- How states are described. -/
structure RS (s : State conc) (s' : State S) : Prop where
  reg : ∀ r, R.RV (s.get r) (s'.get r)
  mem : R.RM s.mem s'.mem
  fl : s.fl = s'.fl

variable {R}

theorem RS.set {s : State conc} {s' : State S} (h : R.RS s s') (r : Reg) {v : CVal} {v' : Val S.W} (hv : R.RV v v') :
    R.RS (s.set r v) (s'.set r v') := by
  refine ⟨fun r' => ?_, by simpa using h.mem, by simpa using h.fl⟩
  rw [get_set, get_set]
  split
  · exact hv
  · exact h.reg r'

theorem RS.setMem {s : State conc} {s' : State S} (h : R.RS s s') {m : conc.M} {m' : S.M} (hm : R.RM m m') :
    R.RS (s.setMem m) (s'.setMem m') :=
  ⟨fun r => by simpa using h.reg r, by simpa using hm, by simpa using h.fl⟩

theorem RS.setFl {s : State conc} {s' : State S} (h : R.RS s s') (f : Flags) : R.RS (s.setFl f) (s'.setFl f) :=
  ⟨fun r => by simpa using h.reg r, by simpa using h.mem, by simp⟩

theorem setW_T {s t : State conc} {s' t' : State S} (h : R.RS s s') {r : Reg} {x : BitVec 32} {y : S.W} (hx : R.RW x y)
    (e : setW (D := conc) s r x = some t) (e' : setW (D := S) s' r y = some t') : R.RS t t' := by
  unfold setW at e'
  rw [R.force, Option.some.injEq] at e'
  have e : some (s.set r (.w x)) = some t := e
  rw [Option.some.injEq] at e
  subst e e'
  exact h.set r ⟨x, rfl, hx⟩

theorem setV_T {s t : State conc} {s' t' : State S} (h : R.RS s s') {r : Reg} {v : CVal} {v' : Val S.W} (hv : R.RV v v')
    (e : setV (D := conc) s r v = some t) (e' : setV (D := S) s' r v' = some t') : R.RS t t' := by
  have e0 : setV (D := conc) s r v = some (s.set r v) := by cases v <;> rfl
  have e1 : setV (D := S) s' r v' = some (s'.set r v') := by
    cases v' with
    | w y => exact R.force y _
    | a x => rfl
    | undef => rfl
  rw [e0] at e
  rw [e1] at e'
  cases e
  cases e'
  exact h.set r hv

theorem asW_T {v : CVal} {v' : Val S.W} {x : BitVec 32} {y : S.W} (h : R.RV v v') (e : asW (D := conc) v = some x)
    (e' : asW (D := S) v' = some y) : R.RW x y := by
  cases v' with
  | w z =>
    obtain ⟨x0, rfl, hx⟩ := h
    cases e
    cases e'
    exact hx
  | a z => cases e'
  | undef => cases e'

/-- A value for which the run has an address is a pointer. -/
theorem addr_T {v : CVal} {v' : Val S.W} {off : Int} {a' : Nat × Nat} (h : R.RV v v') (e' : addr (D := S) v' off = some a') :
    addr (D := conc) v off = some a' := by
  cases v' with
  | w z => cases e'
  | undef => cases e'
  | a z =>
    cases z with
    | ptr o i =>
      rw [show v = .a (.ptr o i) from h]
      exact e'
    | code n => cases e'
    | opq n => cases e'

theorem addVal_T {v b : CVal} {v' b' : Val S.W} {imm : Int} (h : R.RV v v') (e : addVal (D := conc) v imm = some b)
    (e' : addVal (D := S) v' imm = some b') : R.RV b b' := by
  cases v' with
  | w z =>
    obtain ⟨x, rfl, hx⟩ := h
    simp only [addVal] at e'
    split at e' <;> [rename_i n hn; cases e']
    cases e'
    have := R.known hx hn
    subst this
    cases e
    exact ⟨_, rfl, R.const _⟩
  | undef => cases e'
  | a z =>
    cases z with
    | ptr o i =>
      have h : v = .a (.ptr o i) := h
      subst h
      simp only [addVal] at e e'
      generalize i + imm = q at *
      cases q <;> cases e <;> cases e' <;> rfl
    | code n => cases e'
    | opq n => cases e'

/-- The new contents of a base register. -/
def RB (R : TSim S) (b : Option CVal) (b' : Option (Val S.W)) : Prop :=
  (b = none ∧ b' = none) ∨ ∃ w w', b = some w ∧ b' = some w' ∧ R.RV w w'

theorem index_T {v : CVal} {v' : Val S.W} {off : Int} {x : Idx} {a a' : Nat × Nat} {b : Option CVal} {b' : Option (Val S.W)} (h : R.RV v v')
    (e : index (D := conc) v off x = some (a, b)) (e' : index (D := S) v' off x = some (a', b')) : a = a' ∧ R.RB b b' := by
  cases x with
  | off =>
    simp only [index] at e e'
    split at e' <;> [rename_i q' h'; cases e']
    rw [addr_T h h'] at e
    cases e
    cases e'
    exact ⟨rfl, .inl ⟨rfl, rfl⟩⟩
  | pre =>
    simp only [index] at e e'
    split at e' <;> [rename_i q' w' h' h2'; cases e']
    rw [addr_T h h'] at e
    split at e <;> [rename_i q w h1 h2; cases e]
    cases h1
    cases e
    cases e'
    exact ⟨rfl, .inr ⟨_, _, rfl, rfl, addVal_T h h2 h2'⟩⟩
  | post =>
    simp only [index] at e e'
    split at e' <;> [rename_i q' w' h' h2'; cases e']
    rw [addr_T h h'] at e
    split at e <;> [rename_i q w h1 h2; cases e]
    cases h1
    cases e
    cases e'
    exact ⟨rfl, .inr ⟨_, _, rfl, rfl, addVal_T h h2 h2'⟩⟩

theorem wback_T {s t : State conc} {s' t' : State S} (h : R.RS s s') {r : Reg} {b : Option CVal} {b' : Option (Val S.W)} (hb : R.RB b b')
    (e : wback (D := conc) s r b = some t) (e' : wback (D := S) s' r b' = some t') : R.RS t t' := by
  rcases hb with ⟨rfl, rfl⟩ | ⟨w, w', rfl, rfl, hw⟩
  · cases e
    cases e'
    exact h
  · exact setV_T h hw e e'

theorem load_T {m : conc.M} {m' : S.M} (h : R.RM m m') {o i : Nat} {v : CVal} {v' : Val S.W}
    (e : load (D := conc) m o i = some v) (e' : load (D := S) m' o i = some v') : R.RV v v' := by
  simp only [load] at e e'
  cases hc1 : conc.rd m o i with
  | none => rw [hc1] at e; cases e
  | some c1 =>
    cases hc2 : conc.rd m o (i + 1) with
    | none => rw [hc1, hc2] at e; cases c1 with | half _ => cases e | undef => cases e | frag x b => cases b <;> cases e
    | some c2 =>
      rw [hc1, hc2] at e
      split at e'
      next l' g' h1 h2 =>
        cases e'
        obtain ⟨x1, rfl, q1⟩ := h _ _ _ _ hc1 h1
        obtain ⟨x2, rfl, q2⟩ := h _ _ _ _ hc2 h2
        cases e
        exact ⟨_, rfl, R.join q1 q2⟩
      next x' y' h1 h2 =>
        split at e' <;> [rename_i hxy; cases e']
        subst hxy
        cases e'
        have q1 := h _ _ _ _ hc1 h1
        have q2 := h _ _ _ _ hc2 h2
        cases x' with
        | opq n => trivial
        | ptr o i =>
          have q1 : c1 = .frag (.ptr o i) false := q1
          have q2 : c2 = .frag (.ptr o i) true := q2
          subst q1 q2
          simp only [if_true, Option.some.injEq] at e
          exact e.symm
        | code n =>
          have q1 : c1 = .frag (.code n) false := q1
          have q2 : c2 = .frag (.code n) true := q2
          subst q1 q2
          simp only [if_true, Option.some.injEq] at e
          exact e.symm
      next => cases e'

theorem loadH_T {m : conc.M} {m' : S.M} (h : R.RM m m') {o i : Nat} {v : CVal} {v' : Val S.W}
    (e : loadH (D := conc) m o i = some v) (e' : loadH (D := S) m' o i = some v') : R.RV v v' := by
  simp only [loadH] at e e'
  split at e' <;> [rename_i h1; cases e']
  split at e <;> [rename_i h2; cases e]
  cases e
  cases e'
  obtain ⟨x, hx, q⟩ := h _ _ _ _ h2 h1
  cases hx
  exact ⟨_, rfl, R.join q R.zero⟩

theorem conc_wr_rd {m m1 : conc.M} {o i : Nat} {c : CCell} (e : conc.wr m o i c = some m1) (o' i' : Nat) {d : CCell}
    (hd : conc.rd m1 o' i' = some d) : if o' = o ∧ i' = i then d = c else conc.rd m o' i' = some d := by
  have hs : (conc.rd m o i).isSome := by
    cases q : conc.rd m o i with
    | some x => rfl
    | none =>
      exfalso
      simp only [conc] at q e
      split at e <;> [rename_i a ha; cases e]
      split at e <;> [rename_i hi; cases e]
      rw [ha] at q
      have := List.getElem?_eq_none_iff.mp q
      omega
  obtain ⟨m2, e1, -, e3⟩ := conc_wr c hs
  rw [show conc.wr m o i c = some m2 from e1] at e
  cases e
  have hd := (e3 o' i').symm.trans hd
  by_cases h : o' = o ∧ i' = i
  · rw [if_pos h]
    exact (Option.some.inj ((if_pos h).symm.trans hd)).symm
  · rw [if_neg h]
    exact (if_neg h).symm.trans hd

theorem wr_T {m m1 : conc.M} {m' m1' : S.M} (h : R.RM m m') {o i : Nat} {c : CCell} {c' : Cell S.H} (hc : R.RC c c')
    (e : conc.wr m o i c = some m1) (e' : S.wr m' o i c' = some m1') : R.RM m1 m1' := by
  intro o' i' d d' hd hd'
  have h1 := conc_wr_rd e o' i' hd
  have h2 := R.wr e' o' i' d' hd'
  by_cases q : o' = o ∧ i' = i
  · rw [if_pos q] at h1 h2
    subst h1
    rcases h2 with rfl | ⟨y, z, rfl, rfl, hz⟩
    · exact hc
    · obtain ⟨x, rfl, -⟩ := hc
      exact ⟨x, rfl, hz x⟩
  · rw [if_neg q] at h1 h2
    exact h _ _ _ _ h1 h2

/-- What a halfword of memory holds after a value has been stored, in any domain. -/
def cellOfD {D : Dom} : Val D.W → Bool → Cell D.H
  | .w x, false => .half (D.lo x)
  | .w x, true => .half (D.hi x)
  | .a x, b => .frag x b
  | .undef, _ => .undef

theorem store_cells {D : Dom} (m : D.M) (o i : Nat) (v : Val D.W) : store m o i v =
    match D.wr m o i (cellOfD v false) with
    | some m => D.wr m o (i + 1) (cellOfD v true)
    | none => none := by
  cases v <;> rfl

theorem store_T {m m1 : conc.M} {m' m1' : S.M} (h : R.RM m m') {o i : Nat} {v : CVal} {v' : Val S.W} (hv : R.RV v v')
    (e : store (D := conc) m o i v = some m1) (e' : store (D := S) m' o i v' = some m1') : R.RM m1 m1' := by
  rw [store_cells] at e e'
  have key : ∀ b, R.RC (cellOfD (D := conc) v b) (cellOfD v' b) := by
    intro b
    cases v' with
    | w y => obtain ⟨x, rfl, hx⟩ := hv; cases b <;> [exact ⟨_, rfl, R.lo hx⟩; exact ⟨_, rfl, R.hi hx⟩]
    | undef => exact trivial
    | a y =>
      cases y with
      | opq n => exact trivial
      | ptr o i => rw [show v = .a (.ptr o i) from hv]; exact rfl
      | code n => rw [show v = .a (.code n) from hv]; exact rfl
  split at e <;> [rename_i m2 h2; cases e]
  split at e' <;> [rename_i m2' h2'; cases e']
  exact wr_T (wr_T h (key false) h2 h2') (key true) e e'

theorem storeH_T {m m1 : conc.M} {m' m1' : S.M} (h : R.RM m m') {o i : Nat} {v : CVal} {v' : Val S.W} (hv : R.RV v v')
    (e : storeH (D := conc) m o i v = some m1) (e' : storeH (D := S) m' o i v' = some m1') : R.RM m1 m1' := by
  simp only [storeH] at e e'
  split at e <;> [skip; cases e]
  split at e' <;> [skip; cases e']
  obtain ⟨x, hx, q⟩ := hv
  cases hx
  exact wr_T h (R.RC_half (R.lo q)) e e'

theorem pushAll_T {s : State conc} {s' : State S} (h : R.RS s s') {o : Nat} (l : List Reg) : ∀ {i : Nat} {m m1 : conc.M}
    {m' m1' : S.M}, R.RM m m' → pushAll (D := conc) s o i l m = some m1 → pushAll (D := S) s' o i l m' = some m1' →
    R.RM m1 m1' := by
  induction l with
  | nil => intro i m m1 m' m1' hm e e'; cases e; cases e'; exact hm
  | cons r l ih =>
    intro i m m1 m' m1' hm e e'
    simp only [pushAll] at e e'
    split at e <;> [rename_i h1; cases e]
    split at e' <;> [rename_i h1'; cases e']
    exact ih (store_T hm (h.reg r) h1 h1') e e'

theorem popAll_T {m : conc.M} {m' : S.M} (hm : R.RM m m') {o : Nat} (l : List Reg) : ∀ {i : Nat} {s t : State conc}
    {s' t' : State S}, R.RS s s' → popAll (D := conc) m o i l s = some t → popAll (D := S) m' o i l s' = some t' → R.RS t t' := by
  induction l with
  | nil => intro i s t s' t' h e e'; cases e; cases e'; exact h
  | cons r l ih =>
    intro i s t s' t' h e e'
    simp only [popAll] at e e'
    split at e <;> [rename_i v h1; cases e]
    split at e <;> [rename_i s1 h2; cases e]
    split at e' <;> [rename_i v' h1'; cases e']
    split at e' <;> [rename_i s1' h2'; cases e']
    exact ih (setV_T h (load_T hm h1 h1') h2 h2') e e'

theorem compare_T {x y : CVal} {x' y' : Val S.W} {f f' : Flags} (hx : R.RV x x') (hy : R.RV y y') (e : compare (D := conc) x y = some f)
    (e' : compare (D := S) x' y' = some f') : f = f' := by
  cases x' with
  | undef => cases e'
  | a z =>
    cases z with
    | opq n => cases e'
    | code n => cases e'
    | ptr o i =>
      have hx : x = .a (.ptr o i) := hx
      subst hx
      cases y' with
      | undef => cases e'
      | w _ => cases e'
      | a z =>
        cases z with
        | opq n => cases e'
        | code n => cases e'
        | ptr o' i' =>
          have hy : y = .a (.ptr o' i') := hy
          subst hy
          exact Option.some.inj (e.symm.trans e')
  | w a =>
    obtain ⟨x0, rfl, hx⟩ := hx
    cases y' with
    | undef => cases e'
    | a z => cases e'
    | w b =>
      obtain ⟨y0, rfl, hy⟩ := hy
      simp only [compare] at e'
      split at e' <;> [rename_i a' b' h1 h2; cases e']
      have q1 := R.known hx h1
      have q2 := R.known hy h2
      subst q1 q2
      exact Option.some.inj (e.symm.trans e')

theorem op1W_T {o : Op1} {rd rm : Reg} {s t : State conc} {s' t' : State S} (h : R.RS s s')
    (e : op1W (D := conc) o rd rm s = some t) (e' : op1W (D := S) o rd rm s' = some t') : R.RS t t' := by
  simp only [op1W] at e e'
  split at e <;> [rename_i x h1; cases e]
  split at e' <;> [rename_i y h1'; cases e']
  exact setW_T h (R.op1 o (asW_T (h.reg rm) h1 h1')) e e'

theorem accEv_T {e : Nat → Nat → Ev} {v : CVal} {v' : Val S.W} {off : Int} {x : Idx} (h : R.RV v v')
    {a : (Nat × Nat) × Option CVal} {a' : (Nat × Nat) × Option (Val S.W)}
    (h1 : index (D := conc) v off x = some a) (h2 : index (D := S) v' off x = some a') :
    accEv (D := conc) e v off x = accEv (D := S) e v' off x := by
  obtain ⟨⟨o, i⟩, b⟩ := a
  obtain ⟨⟨o', i'⟩, b'⟩ := a'
  simp only [accEv, h1, h2]
  have := (index_T h h1 h2).1
  cases this
  rfl

theorem addr_addVal {D : Dom} {v w : Val D.W} {n : Int} {a : Nat × Nat} (h : addVal v n = some w) (h' : addr w 0 = some a) :
    addr v n = some a := by
  cases v with
  | w z =>
    simp only [addVal] at h
    split at h
    · cases h; cases h'
    · cases h
  | undef => cases h
  | a z =>
    cases z with
    | code n => cases h
    | opq n => cases h
    | ptr o i =>
      simp only [addVal] at h
      have e : ∀ k : Int, k + 0 = k := Int.add_zero
      simp only [addr]
      generalize i + n = q at *
      cases q <;> cases h <;> simpa only [addr, e] using h'

/-- One instruction. -/
theorem step_T (i : Ins) : ∀ {s t : State conc} {s' t' : State S}, R.RS s s' → step i s = some t → step i s' = some t' →
    R.RS t t' ∧ stepEv i s = stepEv i s' := by
  induction i with
  | op1 o rd rm =>
    intro s t s' t' h e e'
    refine ⟨?_, rfl⟩
    cases o with
    | id => exact setV_T h (h.reg rm) e e'
    | lsl n => exact op1W_T h e e'
    | lsr n => exact op1W_T h e e'
    | asr n => exact op1W_T h e e'
    | ubfx a b => exact op1W_T h e e'
    | movt n => exact op1W_T h e e'
  | movi rd imm =>
    intro s t s' t' h e e'
    exact ⟨setW_T h (R.const imm) e e', rfl⟩
  | op2 o rd rn rm sh =>
    intro s t s' t' h e e'
    simp only [step] at e e'
    split at e <;> [rename_i x y h1 h2; cases e]
    split at e' <;> [rename_i x' y' h1' h2'; cases e']
    exact ⟨setW_T h (R.op2 o (asW_T (h.reg rn) h1 h1') (R.op1 sh (asW_T (h.reg rm) h2 h2'))) e e', rfl⟩
  | op3 o rd rn rm ra =>
    intro s t s' t' h e e'
    simp only [step] at e e'
    split at e <;> [rename_i x y z h1 h2 h3; cases e]
    split at e' <;> [rename_i x' y' z' h1' h2' h3'; cases e']
    exact ⟨setW_T h (R.op3 o (asW_T (h.reg rn) h1 h1') (asW_T (h.reg rm) h2 h2') (asW_T (h.reg ra) h3 h3')) e e', rfl⟩
  | addi rd rn imm =>
    intro s t s' t' h e e'
    simp only [step] at e e'
    split at e <;> [rename_i v h1; cases e]
    split at e' <;> [rename_i v' h1'; cases e']
    exact ⟨setV_T h (addVal_T (h.reg rn) h1 h1') e e', rfl⟩
  | ldr rd rn off x =>
    intro s t s' t' h e e'
    simp only [step] at e e'
    split at e <;> [rename_i o i b h1; cases e]
    split at e <;> [rename_i v h2; cases e]
    split at e <;> [rename_i s1 h3; cases e]
    split at e' <;> [rename_i o' i' b' h1'; cases e']
    split at e' <;> [rename_i v' h2'; cases e']
    split at e' <;> [rename_i s1' h3'; cases e']
    obtain ⟨q, hb⟩ := index_T (h.reg rn) h1 h1'
    cases q
    exact ⟨setV_T (wback_T h hb h3 h3') (load_T h.mem h2 h2') e e', accEv_T (h.reg rn) h1 h1'⟩
  | ldrh rd rn off x =>
    intro s t s' t' h e e'
    simp only [step] at e e'
    split at e <;> [rename_i o i b h1; cases e]
    split at e <;> [rename_i v h2; cases e]
    split at e <;> [rename_i s1 h3; cases e]
    split at e' <;> [rename_i o' i' b' h1'; cases e']
    split at e' <;> [rename_i v' h2'; cases e']
    split at e' <;> [rename_i s1' h3'; cases e']
    obtain ⟨q, hb⟩ := index_T (h.reg rn) h1 h1'
    cases q
    exact ⟨setV_T (wback_T h hb h3 h3') (loadH_T h.mem h2 h2') e e', accEv_T (h.reg rn) h1 h1'⟩
  | str rd rn off x =>
    intro s t s' t' h e e'
    simp only [step] at e e'
    split at e <;> [rename_i o i b h1; cases e]
    split at e <;> [rename_i v h2; cases e]
    split at e <;> [rename_i s1 h3; cases e]
    split at e' <;> [rename_i o' i' b' h1'; cases e']
    split at e' <;> [rename_i v' h2'; cases e']
    split at e' <;> [rename_i s1' h3'; cases e']
    obtain ⟨q, hb⟩ := index_T (h.reg rn) h1 h1'
    cases q
    cases e
    cases e'
    exact ⟨(wback_T h hb h3 h3').setMem (store_T h.mem (h.reg rd) h2 h2'), accEv_T (h.reg rn) h1 h1'⟩
  | strh rd rn off x =>
    intro s t s' t' h e e'
    simp only [step] at e e'
    split at e <;> [rename_i o i b h1; cases e]
    split at e <;> [rename_i v h2; cases e]
    split at e <;> [rename_i s1 h3; cases e]
    split at e' <;> [rename_i o' i' b' h1'; cases e']
    split at e' <;> [rename_i v' h2'; cases e']
    split at e' <;> [rename_i s1' h3'; cases e']
    obtain ⟨q, hb⟩ := index_T (h.reg rn) h1 h1'
    cases q
    cases e
    cases e'
    exact ⟨(wback_T h hb h3 h3').setMem (storeH_T h.mem (h.reg rd) h2 h2'), accEv_T (h.reg rn) h1 h1'⟩
  | push l =>
    intro s t s' t' h e e'
    simp only [step] at e e'
    split at e <;> [rename_i v h1; cases e]
    split at e <;> [rename_i o i h2; cases e]
    split at e <;> [rename_i m h3; cases e]
    split at e' <;> [rename_i v' h1'; cases e']
    split at e' <;> [rename_i o' i' h2'; cases e']
    split at e' <;> [rename_i m' h3'; cases e']
    cases e
    cases e'
    have hv := addVal_T (h.reg .sp) h1 h1'
    have ha := addr_T hv h2'
    rw [h2] at ha
    cases ha
    refine ⟨(h.set .sp hv).setMem (pushAll_T h l h.mem h3 h3'), ?_⟩
    simp only [stepEv, addr_addVal h1 h2, addr_addVal h1' h2']
  | pop l =>
    intro s t s' t' h e e'
    simp only [step] at e e'
    split at e <;> [rename_i v o i h1 h2; cases e]
    split at e <;> [rename_i s1 h3; cases e]
    split at e' <;> [rename_i v' o' i' h1' h2'; cases e']
    split at e' <;> [rename_i s1' h3'; cases e']
    cases e
    cases e'
    have hv := addVal_T (h.reg .sp) h1 h1'
    have ha := addr_T (h.reg .sp) h2'
    rw [h2] at ha
    cases ha
    refine ⟨(popAll_T h.mem l h h3 h3').set .sp hv, ?_⟩
    simp only [stepEv, h2, h2']
  | cmp rn rm =>
    intro s t s' t' h e e'
    simp only [step] at e e'
    split at e <;> [rename_i f h1; cases e]
    split at e' <;> [rename_i f' h1'; cases e']
    have := compare_T (h.reg rn) (h.reg rm) h1 h1'
    subst this
    cases e
    cases e'
    exact ⟨h.setFl _, rfl⟩
  | cmpi rn imm =>
    intro s t s' t' h e e'
    simp only [step] at e e'
    split at e <;> [rename_i f h1; cases e]
    split at e' <;> [rename_i f' h1'; cases e']
    have hc : R.RV (.w (conc.const imm)) (.w (S.const imm)) := ⟨_, rfl, R.const imm⟩
    have := compare_T (h.reg rn) hc h1 h1'
    subst this
    cases e
    cases e'
    exact ⟨h.setFl _, rfl⟩
  | bx rm =>
    intro s t s' t' h e e'
    cases e
    cases e'
    exact ⟨h.set .pc (h.reg rm), rfl⟩
  | ls i ih =>
    intro s t s' t' h e e'
    simp only [step, stepEv, h.fl] at e e' ⊢
    split at e' <;> [skip; skip; cases e'] <;> rename_i q <;> rw [q] at e
    · obtain ⟨h1, h2⟩ := ih h e e'
      exact ⟨h1, by rw [q, h2]⟩
    · cases e
      cases e'
      exact ⟨h, by rw [q]⟩
  | ne i ih =>
    intro s t s' t' h e e'
    simp only [step, stepEv, h.fl] at e e' ⊢
    split at e' <;> [skip; skip; cases e'] <;> rename_i q <;> rw [q] at e
    · obtain ⟨h1, h2⟩ := ih h e e'
      exact ⟨h1, by rw [q, h2]⟩
    · cases e
      cases e'
      exact ⟨h, by rw [q]⟩
  | s i ih =>
    intro s t s' t' h e e'
    simp only [step] at e e'
    split at e <;> [rename_i s1 h1; cases e]
    split at e' <;> [rename_i s1' h1'; cases e']
    cases e
    cases e'
    obtain ⟨g1, g2⟩ := ih h h1 h1'
    exact ⟨g1.setFl _, g2⟩
  | ldc rd n =>
    intro s t s' t' h e e'
    cases e
    cases e'
    exact ⟨h.set rd (v' := .a (.code n)) rfl, rfl⟩

theorem steps_T (l : List Ins) : ∀ {s t : State conc} {s' t' : State S}, R.RS s s' → steps l s = some t → steps l s' = some t' →
    R.RS t t' ∧ stepsEv l s = stepsEv l s' := by
  induction l with
  | nil => intro s t s' t' h e e'; cases e; cases e'; exact ⟨h, rfl⟩
  | cons i l ih =>
    intro s t s' t' h e e'
    simp only [steps] at e e'
    split at e <;> [rename_i s1 h1; cases e]
    split at e' <;> [rename_i s1' h1'; cases e']
    obtain ⟨g1, g2⟩ := step_T i h h1 h1'
    obtain ⟨g3, g4⟩ := ih g1 e e'
    exact ⟨g3, by simp only [stepsEv, h1, h1', g2, g4]⟩

theorem doNe_T (b : List Ins) (n : Nat) : ∀ {s t : State conc} {s' t' : State S}, R.RS s s' → doNe b n s = some t → doNe b n s' = some t' →
    R.RS t t' ∧ doNeEv b n s = doNeEv b n s' := by
  induction n with
  | zero => intro s t s' t' h e e'; cases e
  | succ n ih =>
    intro s t s' t' h e e'
    simp only [doNe] at e e'
    split at e <;> [rename_i s1 h1; cases e]
    split at e' <;> [rename_i s1' h1'; cases e']
    obtain ⟨g1, g2⟩ := steps_T b h h1 h1'
    rw [g1.fl] at e
    split at e' <;> [skip; skip; cases e'] <;> rename_i q <;> rw [q] at e
    · cases e
      cases e'
      exact ⟨g1, by simp only [doNeEv, h1, h1', g1.fl, q, g2]⟩
    · obtain ⟨g3, g4⟩ := ih g1 e e'
      exact ⟨g3, by simp only [doNeEv, h1, h1', g1.fl, q, g2, g4]⟩

/-- What is proved about a function. -/
def FnT (R : TSim S) (f : State conc → Option (State conc)) (fe : State conc → List Ev) (f' : State S → Option (State S))
    (fe' : State S → List Ev) : Prop :=
  ∀ {s t : State conc} {s' t' : State S}, R.RS s s' → f s = some t → f' s' = some t' → R.RS t t' ∧ fe s = fe' s'

theorem callFn_T {f : State conc → Option (State conc)} {fe : State conc → List Ev} {f' : State S → Option (State S)}
    {fe' : State S → List Ev} (hf : FnT R f fe f' fe') (n : Nat) {s t : State conc} {s' t' : State S} (h : R.RS s s')
    (e : callFn f n s = some t) (e' : callFn f' n s' = some t') :
    R.RS t t' ∧ fe (s.set .lr (.a (.code n))) = fe' (s'.set .lr (.a (.code n))) := by
  simp only [callFn] at e e'
  split at e <;> [rename_i s1 h1; cases e]
  split at e' <;> [rename_i s1' h1'; cases e']
  split at e <;> [skip; cases e]
  split at e <;> [skip; cases e]
  split at e' <;> [skip; cases e']
  split at e' <;> [skip; cases e']
  cases e
  cases e'
  exact hf (h.set .lr (v' := .a (.code n)) rfl) h1 h1'

theorem run_T {f : Nat → State conc → Option (State conc)} {fe : Nat → State conc → List Ev} {f' : Nat → State S → Option (State S)}
    {fe' : Nat → State S → List Ev} (hf : ∀ k, FnT R (f k) (fe k) (f' k) (fe' k)) (l : List Stmt) : ∀ (n : Nat),
    FnT R (run f n l) (runEv f fe n l) (run f' n l) (runEv f' fe' n l) := by
  induction l with
  | nil => intro n s t s' t' h e e'; cases e; cases e'; exact ⟨h, rfl⟩
  | cons a l ih =>
    intro n s t s' t' h e e'
    cases a with
    | ins b =>
      simp only [run] at e e'
      split at e <;> [rename_i s1 h1; cases e]
      split at e' <;> [rename_i s1' h1'; cases e']
      obtain ⟨g1, g2⟩ := steps_T b h h1 h1'
      obtain ⟨g3, g4⟩ := ih n g1 e e'
      exact ⟨g3, by simp only [runEv, h1, h1', g2, g4]⟩
    | loop b =>
      simp only [run] at e e'
      split at e <;> [rename_i s1 h1; cases e]
      split at e' <;> [rename_i s1' h1'; cases e']
      obtain ⟨g1, g2⟩ := doNe_T b 256 h h1 h1'
      obtain ⟨g3, g4⟩ := ih n g1 e e'
      exact ⟨g3, by simp only [runEv, h1, h1', g2, g4]⟩
    | call k =>
      simp only [run] at e e'
      split at e <;> [rename_i s1 h1; cases e]
      split at e' <;> [rename_i s1' h1'; cases e']
      obtain ⟨g1, g2⟩ := callFn_T (hf k) n h h1 h1'
      obtain ⟨g3, g4⟩ := ih (n + 1) g1 e e'
      exact ⟨g3, by simp only [runEv, h1, h1', g2, g4]⟩

/-- A function that is never called. -/
theorem noFn_T (R : TSim S) : FnT R (fun _ => none) (fun _ => []) (fun _ => none) (fun _ => []) := by
  intro s t s' t' h e
  cases e

theorem zeros_T (o n : Nat) : ∀ {i : Nat} {m m1 : conc.M} {m' m1' : S.M}, R.RM m m' → zeros (D := conc) o n i m = some m1 →
    zeros (D := S) o n i m' = some m1' → R.RM m1 m1' := by
  induction n with
  | zero => intro i m m1 m' m1' h e e'; cases e; cases e'; exact h
  | succ n ih =>
    intro i m m1 m' m1' h e e'
    simp only [zeros] at e e'
    split at e <;> [rename_i m2 h1; cases e]
    split at e' <;> [rename_i m2' h1'; cases e']
    exact ih (wr_T h (R.RC_half R.zero) h1 h1') e e'

theorem memset0_T : FnT R memset0 memset0Ev memset0 memset0Ev := by
  intro s t s' t' h e e'
  simp only [memset0] at e e'
  split at e <;> [rename_i o i c n h1 h2 h3; cases e]
  split at e' <;> [rename_i o' i' c' n' h1' h2' h3'; cases e']
  split at e <;> [rename_i k k1 k2; cases e]
  split at e' <;> [rename_i k' k1' k2'; cases e']
  split at e <;> [rename_i d; cases e]
  split at e' <;> [rename_i d'; cases e']
  split at e <;> [rename_i m z; cases e]
  split at e' <;> [rename_i m' z'; cases e']
  cases e
  cases e'
  have ha := addr_T (h.reg .r0) h1'
  rw [show s.get .r0 = s.r0 from rfl, h1] at ha
  cases ha
  have hn := R.known (asW_T (h.reg .r2) h3 h3') k2'
  have hk : k = k' := by
    have : some n.toNat = some k := k2
    rw [hn] at this
    exact (Option.some.inj this).symm
  subst hk
  refine ⟨?_, ?_⟩
  · exact ((((((((h.set .r1 (v := .undef) (v' := .undef) trivial).set .r2 (v := .undef) (v' := .undef) trivial).set .r3
      (v := .undef) (v' := .undef) trivial).set .ip (v := .undef) (v' := .undef) trivial).set .pc (h.reg .lr)).set .lr
      (v := .undef) (v' := .undef) trivial).setMem (zeros_T _ _ h.mem z z')).setFl _)
  · simp only [memset0Ev, h1, h3, h1', h3', k2, k2']

theorem karaF_T (R : TSim S) : FnT R (karaF conc) (karaEv conc) (karaF S) (karaEv S) :=
  run_T (fun _ => run_T (fun _ => noFn_T R) _ _) _ _

theorem mulF_T (R : TSim S) : FnT R (mulF conc) (mulEv conc) (mulF S) (mulEv S) :=
  run_T (fun _ => run_T (fun _ => noFn_T R) _ _) _ _

theorem toomF_T (R : TSim S) : FnT R (toomF conc) (toomEv conc) (toomF S) (toomEv S) :=
  run_T (fun k => match k with
    | 0 => mulF_T R
    | 1 => memset0_T
    | _ + 2 => noFn_T R) _ _

theorem permF_T (R : TSim S) : FnT R (Keccak.permF conc) (permEv conc) (Keccak.permF S) (permEv S) := by
  intro s t s' t' h e e'
  exact run_T (fun _ => noFn_T R) _ 0 (h.set .r1 (v' := .a (.ptr 1 0)) rfl) e e'

end TSim

end Saber.Arm
