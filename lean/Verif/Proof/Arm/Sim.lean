import Verif.Model.Arm.Machine
/-!
# Runs of the machine follow symbolic runs
-/
namespace Saber.Arm

abbrev CVal := Val conc.W
abbrev CCell := Cell conc.H

/-- What a halfword of memory holds after a value has been stored. -/
def cellOf : CVal → Bool → CCell
  | .w x, false => .half (clo x)
  | .w x, true => .half (chi x)
  | .a x, b => .frag x b
  | .undef, _ => .undef

theorem join_lo_hi (x : BitVec 32) : chi x ++ clo x = x := by
  apply BitVec.eq_of_toNat_eq
  rw [BitVec.toNat_append]
  unfold chi clo
  rw [BitVec.toNat_setWidth, BitVec.toNat_setWidth, BitVec.toNat_ushiftRight, ← Nat.shiftLeft_add_eq_or_of_lt (Nat.mod_lt _ (by decide)),
    Nat.shiftLeft_eq, Nat.shiftRight_eq_div_pow]
  have := x.isLt
  omega

theorem clo_append (h l : BitVec 16) : clo (h ++ l) = l := by
  apply BitVec.eq_of_toNat_eq
  unfold clo
  rw [BitVec.toNat_setWidth, BitVec.toNat_append, ← Nat.shiftLeft_add_eq_or_of_lt l.isLt, Nat.shiftLeft_eq]
  have := l.isLt
  omega

theorem chi_append (h l : BitVec 16) : chi (h ++ l) = h := by
  apply BitVec.eq_of_toNat_eq
  unfold chi
  rw [BitVec.toNat_setWidth, BitVec.toNat_ushiftRight, BitVec.toNat_append, ← Nat.shiftLeft_add_eq_or_of_lt l.isLt, Nat.shiftLeft_eq,
    Nat.shiftRight_eq_div_pow]
  have := l.isLt
  have := h.isLt
  omega

/-- How symbolic words and halfwords describe words and halfwords. -/
structure Sim (S : Dom) where
  RH : BitVec 16 → S.H → Prop
  RW : BitVec 32 → S.W → Prop
  lo : ∀ {x y}, RW x y → RH (clo x) (S.lo y)
  hi : ∀ {x y}, RW x y → RH (chi x) (S.hi y)
  join : ∀ {l l' h h'}, RH l l' → RH h h' → RW (h ++ l) (S.join l' h')
  zero : RH 0 S.zero
  const : ∀ n, RW (BitVec.ofNat 32 n) (S.const n)
  known : ∀ {x y n}, RW x y → S.known y = some n → x.toNat = n
  op1 : ∀ o {x y}, RW x y → RW (cop1 o x) (S.op1 o y)
  op2 : ∀ o {x y x' y'}, RW x y → RW x' y' → RW (cop2 o x x') (S.op2 o y y')
  op3 : ∀ o {x y x' y' x'' y''}, RW x y → RW x' y' → RW x'' y'' → RW (cop3 o x x' x'') (S.op3 o y y' y'')
  wr : ∀ {m o i c m'}, S.wr m o i c = some m' → (S.rd m o i).isSome ∧
    ∀ o' i', S.rd m' o' i' = if o' = o ∧ i' = i then some c else S.rd m o' i'
  force : ∀ {α : Type} (x : S.W) (k : S.W → α), S.force x k = k x

/-- The place of the symbolic objects in the memory of the machine: object `o` is the part of object `ob o` from halfword `off o`.  `dom` says
which halfwords the symbolic objects have; different ones have different places.  `env` gives the values that the symbolic run does not
know, and `m0` is the memory at the beginning. -/
structure Ctx where
  env : Nat → CVal
  ob : Nat → Nat
  off : Nat → Nat
  dom : Nat → Nat → Prop
  inj : ∀ {o i o' i'}, dom o i → dom o' i' → ob o = ob o' → off o + i = off o' + i' → o = o' ∧ i = i'
  m0 : conc.M
  known : ∀ k, env k ≠ .undef

/-- The symbolic objects are the objects of the machine. -/
def Ctx.plain (env : Nat → CVal) (known : ∀ k, env k ≠ .undef) (m0 : conc.M) : Ctx where
  env := env
  ob o := o
  off _ := 0
  dom _ _ := True
  inj _ _ h1 h2 := ⟨h1, by omega⟩
  m0 := m0
  known := known

/-- A pointer of the machine. -/
def Ctx.ptr (X : Ctx) (o : Nat) (i : Int) : CVal := .a (.ptr (X.ob o) (i + 2 * X.off o))

variable {S : Dom} (R : Sim S) (X : Ctx)

def Sim.RV : CVal → Val S.W → Prop
  | v, .w y => ∃ x, v = .w x ∧ R.RW x y
  | v, .a (.opq k) => v = X.env k
  | v, .a (.ptr o i) => v = X.ptr o i
  | v, .a (.code n) => v = .a (.code n)
  | _, .undef => True

def Sim.RC : CCell → Cell S.H → Prop
  | c, .half y => ∃ x, c = .half x ∧ R.RH x y
  | c, .frag (.opq k) b => c = cellOf (X.env k) b
  | c, .frag (.ptr o i) b => c = cellOf (X.ptr o i) b
  | c, .frag (.code n) b => c = .frag (.code n) b
  | _, .undef => True

structure Sim.RM (m : conc.M) (m' : S.M) : Prop where
  len : m.map List.length = X.m0.map List.length
  rd : ∀ o i c', S.rd m' o i = some c' → X.dom o i ∧ ∃ c, conc.rd m (X.ob o) (X.off o + i) = some c ∧ R.RC X c c'
  frame : ∀ p j, (∀ o i, X.dom o i → X.ob o = p → X.off o + i ≠ j) → conc.rd m p j = conc.rd X.m0 p j

/-- What is known about the flags. -/
def FlR (f f' : Flags) : Prop := (∀ b, f'.eq = some b → f.eq = some b) ∧ ∀ b, f'.ls = some b → f.ls = some b

theorem FlR.refl (f : Flags) : FlR f f := ⟨fun _ h => h, fun _ h => h⟩

structure Sim.RS (s : State conc) (s' : State S) : Prop where
  reg : ∀ r, R.RV X (s.get r) (s'.get r)
  mem : R.RM X s.mem s'.mem
  fl : FlR s.fl s'.fl

variable {R X}

@[simp] theorem get_set {D : Dom} (s : State D) (r r' : Reg) (v : Val D.W) : (s.set r v).get r' = if r' = r then v else s.get r' := by
  cases r <;> cases r' <;> rfl
@[simp] theorem mem_set {D : Dom} (s : State D) (r : Reg) (v : Val D.W) : (s.set r v).mem = s.mem := by cases r <;> rfl
@[simp] theorem fl_set {D : Dom} (s : State D) (r : Reg) (v : Val D.W) : (s.set r v).fl = s.fl := by cases r <;> rfl
@[simp] theorem get_setMem {D : Dom} (s : State D) (m : D.M) (r : Reg) : (s.setMem m).get r = s.get r := by cases r <;> rfl
@[simp] theorem mem_setMem {D : Dom} (s : State D) (m : D.M) : (s.setMem m).mem = m := rfl
@[simp] theorem fl_setMem {D : Dom} (s : State D) (m : D.M) : (s.setMem m).fl = s.fl := rfl
@[simp] theorem get_setFl {D : Dom} (s : State D) (f : Flags) (r : Reg) : (s.setFl f).get r = s.get r := by cases r <;> rfl
@[simp] theorem mem_setFl {D : Dom} (s : State D) (f : Flags) : (s.setFl f).mem = s.mem := rfl
@[simp] theorem fl_setFl {D : Dom} (s : State D) (f : Flags) : (s.setFl f).fl = f := rfl

theorem Sim.RS.set {s : State conc} {s' : State S} (h : R.RS X s s') (r : Reg) {v : CVal} {v' : Val S.W} (hv : R.RV X v v') :
    R.RS X (s.set r v) (s'.set r v') := by
  refine ⟨fun r' => ?_, by simpa using h.mem, by simpa using h.fl⟩
  rw [get_set, get_set]
  split
  · exact hv
  · exact h.reg r'

theorem Sim.RS.setMem {s : State conc} {s' : State S} (h : R.RS X s s') {m : conc.M} {m' : S.M} (hm : R.RM X m m') :
    R.RS X (s.setMem m) (s'.setMem m') :=
  ⟨fun r => by simpa using h.reg r, by simpa using hm, by simpa using h.fl⟩

theorem Sim.RS.setFl {s : State conc} {s' : State S} (h : R.RS X s s') (f : Flags) : R.RS X (s.setFl f) (s'.setFl f) :=
  ⟨fun r => by simpa using h.reg r, by simpa using h.mem, by simpa using FlR.refl f⟩

theorem RV_mk {x : conc.W} {y : S.W} (h : R.RW x y) : R.RV X (.w x) (.w y) := ⟨x, rfl, h⟩
theorem RC_mk {x : conc.H} {y : S.H} (h : R.RH x y) : R.RC X (.half x) (.half y) := ⟨x, rfl, h⟩

theorem RV_w {v : CVal} {x : S.W} (h : R.RV X v (.w x)) : ∃ y, v = .w y ∧ R.RW y x := h

theorem asW_sim {v : CVal} {v' : Val S.W} {y : S.W} (h : R.RV X v v') (e : asW v' = some y) :
    ∃ x, asW (D := conc) v = some x ∧ R.RW x y := by
  cases v' with
  | w z =>
    obtain ⟨x, rfl, hx⟩ := h
    simp only [asW, Option.some.injEq] at e
    subst e
    exact ⟨x, rfl, hx⟩
  | a z => simp [asW] at e
  | undef => simp [asW] at e

theorem setW_sim {s : State conc} {s' s1' : State S} (h : R.RS X s s') {r : Reg} {x : BitVec 32} {y : S.W} (hx : R.RW x y)
    (e : setW s' r y = some s1') : ∃ s1, setW (D := conc) s r x = some s1 ∧ R.RS X s1 s1' := by
  simp only [setW, R.force, Option.some.injEq] at e
  subst e
  exact ⟨_, rfl, h.set r ⟨x, rfl, hx⟩⟩

theorem setV_sim {s : State conc} {s' s1' : State S} (h : R.RS X s s') {r : Reg} {v : CVal} {v' : Val S.W} (hv : R.RV X v v')
    (e : setV s' r v' = some s1') : ∃ s1, setV (D := conc) s r v = some s1 ∧ R.RS X s1 s1' := by
  have e0 : setV (D := conc) s r v = some (s.set r v) := by cases v <;> rfl
  have e1 : s1' = s'.set r v' := by
    cases v' with
    | w y =>
      simp only [setV, setW, R.force, Option.some.injEq] at e
      exact e.symm
    | a x =>
      simp only [setV, Option.some.injEq] at e
      exact e.symm
    | undef =>
      simp only [setV, Option.some.injEq] at e
      exact e.symm
  rw [e1]
  exact ⟨_, e0, h.set r hv⟩

theorem addr_sim {v : CVal} {v' : Val S.W} {off : Int} {a : Nat × Nat} (h : R.RV X v v') (e : addr v' off = some a) :
    addr (D := conc) v off = some (X.ob a.1, X.off a.1 + a.2) := by
  cases v' with
  | w z => simp [addr] at e
  | undef => simp [addr] at e
  | a z =>
    cases z with
    | ptr o i =>
      rw [show v = X.ptr o i from h]
      simp only [addr, Ctx.ptr] at e ⊢
      cases hi : i + off with
      | negSucc n => simp [hi] at e
      | ofNat n =>
        rw [hi] at e
        simp only [Option.ite_none_right_eq_some, Option.some.injEq] at e
        obtain ⟨e1, e2⟩ := e
        subst e2
        have : i + 2 * (X.off o : Int) + off = Int.ofNat (n + 2 * X.off o) := by
          rw [Int.ofNat_eq_natCast] at hi ⊢
          push_cast
          omega
        rw [this]
        simp only
        rw [if_pos (by omega)]
        congr 2
        omega
    | code n => simp [addr] at e
    | opq n => simp [addr] at e

theorem addVal_ptr {D : Dom} (o : Nat) (i imm : Int) : addVal (D := D) (.a (.ptr o i)) imm = some (.a (.ptr o (i + imm))) := by
  simp only [addVal]
  cases hi : i + imm <;> rfl

theorem addVal_sim {v : CVal} {v' u' : Val S.W} {imm : Int} (h : R.RV X v v') (e : addVal v' imm = some u') :
    ∃ u, addVal (D := conc) v imm = some u ∧ R.RV X u u' := by
  cases v' with
  | w z =>
    obtain ⟨x, rfl, hx⟩ := h
    simp only [addVal] at e ⊢
    cases hk : S.known z with
    | none => simp [hk] at e
    | some n =>
      simp only [hk, Option.some.injEq] at e
      subst e
      have := R.known hx hk
      refine ⟨_, rfl, _, rfl, ?_⟩
      simp only [this]
      exact R.const _
  | a z =>
    cases z with
    | ptr o i =>
      rw [show v = X.ptr o i from h, Ctx.ptr, addVal_ptr]
      rw [addVal_ptr] at e
      simp only [Option.some.injEq] at e
      subst e
      refine ⟨_, rfl, ?_⟩
      show (Val.a _ : CVal) = Val.a (Atom.ptr _ _)
      congr 2
      omega
    | code n => simp [addVal] at e
    | opq n => simp [addVal] at e
  | undef => simp [addVal] at e

theorem load_cellOf {m : conc.M} {o i : Nat} {v : CVal} (h0 : conc.rd m o i = some (cellOf v false))
    (h1 : conc.rd m o (i + 1) = some (cellOf v true)) (hv : v ≠ .undef) : load (D := conc) m o i = some v := by
  unfold load
  rw [h0, h1]
  cases v with
  | w x =>
    have : conc.join (clo x) (chi x) = x := join_lo_hi x
    simp [cellOf, this]
  | a x => simp [cellOf]
  | undef => exact absurd rfl hv

theorem load_sim {m : conc.M} {m' : S.M} {o i : Nat} {v' : Val S.W} (h : R.RM X m m') (e : load m' o i = some v') :
    ∃ v, load (D := conc) m (X.ob o) (X.off o + i) = some v ∧ R.RV X v v' := by
  unfold load at e
  cases h0 : S.rd m' o i with
  | none => simp [h0] at e
  | some c0 =>
    cases h1 : S.rd m' o (i + 1) with
    | none => rw [h0, h1] at e; cases c0 <;> simp at e
    | some c1 =>
      rw [h0, h1] at e
      obtain ⟨d0, hd0, r0⟩ := (h.rd _ _ _ h0).2
      obtain ⟨d1, hd1, r1⟩ := (h.rd _ _ _ h1).2
      change conc.rd m (X.ob o) (X.off o + i + 1) = some d1 at hd1
      cases c0 with
      | half l =>
        cases c1 with
        | half k =>
          simp only [Option.some.injEq] at e
          subst e
          obtain ⟨x, rfl, hx⟩ := r0
          obtain ⟨y, rfl, hy⟩ := r1
          refine ⟨.w (conc.join x y), ?_, _, rfl, R.join hx hy⟩
          unfold load
          rw [hd0, hd1]
        | frag x b => simp at e
        | undef => simp at e
      | undef => simp at e
      | frag x b =>
        cases c1 with
        | half k => cases b <;> simp at e
        | undef => cases b <;> simp at e
        | frag y b' =>
          cases b with
          | true => simp at e
          | false =>
            cases b' with
            | false => simp at e
            | true =>
              simp only [Option.ite_none_right_eq_some, Option.some.injEq] at e
              obtain ⟨rfl, rfl⟩ := e
              cases x with
              | ptr o i =>
                refine ⟨X.ptr o i, load_cellOf ?_ ?_ (by simp [Ctx.ptr]), rfl⟩
                · rw [hd0]; exact congrArg some r0
                · rw [hd1]; exact congrArg some r1
              | code n =>
                refine ⟨.a (.code n), load_cellOf ?_ ?_ (by simp), rfl⟩
                · rw [hd0]; exact congrArg some r0
                · rw [hd1]; exact congrArg some r1
              | opq k =>
                refine ⟨X.env k, load_cellOf ?_ ?_ (X.known k), rfl⟩
                · rw [hd0]; exact congrArg some r0
                · rw [hd1]; exact congrArg some r1

theorem loadH_sim {m : conc.M} {m' : S.M} {o i : Nat} {v' : Val S.W} (h : R.RM X m m') (e : loadH m' o i = some v') :
    ∃ v, loadH (D := conc) m (X.ob o) (X.off o + i) = some v ∧ R.RV X v v' := by
  unfold loadH at e
  cases h0 : S.rd m' o i with
  | none => simp [h0] at e
  | some c0 =>
    rw [h0] at e
    obtain ⟨d0, hd0, r0⟩ := (h.rd _ _ _ h0).2
    cases c0 with
    | half l =>
      simp only [Option.some.injEq] at e
      subst e
      obtain ⟨x, rfl, hx⟩ := r0
      refine ⟨.w (conc.join x conc.zero), ?_, _, rfl, R.join hx R.zero⟩
      unfold loadH
      rw [hd0]
    | frag x b => simp at e
    | undef => simp at e

theorem conc_wr {m : List (List (Cell (BitVec 16)))} {o i : Nat} (c : Cell (BitVec 16)) (h : (conc.rd m o i).isSome) :
    ∃ m1, conc.wr m o i c = some m1 ∧ m1.map List.length = m.map List.length ∧
      ∀ o' i', conc.rd m1 o' i' = if o' = o ∧ i' = i then some c else conc.rd m o' i' := by
  have h' : (match m[o]? with | some a => a[i]? | none => none).isSome := h
  cases ho : m[o]? with
  | none => simp [ho] at h'
  | some a =>
    rw [ho] at h'
    simp only at h'
    have hi : i < a.length := by
      apply Nat.lt_of_not_le
      intro hn
      rw [List.getElem?_eq_none hn] at h'
      simp at h'
    have ho' : o < m.length := by
      apply Nat.lt_of_not_le
      intro hn
      rw [List.getElem?_eq_none hn] at ho
      simp at ho
    refine ⟨m.set o (a.set i c), ?_, ?_, ?_⟩
    · show (match m[o]? with | some a => if i < a.length then some (m.set o (a.set i c)) else none | none => none) = _
      rw [ho]; exact if_pos hi
    · rw [List.map_set, List.length_set]
      apply List.ext_getElem?
      intro k
      rw [List.getElem?_set]
      split
      · rename_i e; subst e; simp [ho']; rw [List.getElem?_eq_getElem ho'] at ho; simp at ho; rw [ho]
      · rfl
    · intro o' i'
      show (match (m.set o (a.set i c))[o']? with | some a => a[i']? | none => none) =
        if o' = o ∧ i' = i then some c else (match m[o']? with | some a => a[i']? | none => none)
      by_cases e : o' = o
      · subst e
        simp only [List.getElem?_set_self ho', true_and, ho]
        by_cases e' : i' = i
        · subst e'; simp [hi]
        · simp [e', List.getElem?_set_ne (Ne.symm e')]
      · rw [List.getElem?_set_ne (Ne.symm e)]
        simp [e]

theorem wr_sim {m : conc.M} {m' m1' : S.M} {o i : Nat} {c : CCell} {c' : Cell S.H} (h : R.RM X m m') (hc : R.RC X c c')
    (e : S.wr m' o i c' = some m1') : ∃ m1, conc.wr m (X.ob o) (X.off o + i) c = some m1 ∧ R.RM X m1 m1' := by
  obtain ⟨h1, h2⟩ := R.wr e
  obtain ⟨d, hd⟩ := Option.isSome_iff_exists.1 h1
  obtain ⟨hdom, d', hd', -⟩ := h.rd _ _ _ hd
  obtain ⟨m1, e1, e2, e3⟩ := conc_wr c (m := m) (o := X.ob o) (i := X.off o + i) (by rw [hd']; rfl)
  refine ⟨m1, e1, e2.trans h.len, fun o' i' x hx => ?_, fun p j hpj => ?_⟩
  · rw [h2] at hx
    by_cases hh : o' = o ∧ i' = i
    · rw [if_pos hh] at hx
      simp only [Option.some.injEq] at hx
      subst hx
      obtain ⟨rfl, rfl⟩ := hh
      exact ⟨hdom, c, (e3 _ _).trans (if_pos ⟨rfl, rfl⟩), hc⟩
    · rw [if_neg hh] at hx
      obtain ⟨h0, d, h3, h4⟩ := h.rd _ _ _ hx
      refine ⟨h0, d, ((e3 _ _).trans (if_neg ?_)).trans h3, h4⟩
      rintro ⟨k1, k2⟩
      exact hh (X.inj h0 hdom k1 k2)
  · rw [← h.frame p j hpj]
    refine (e3 _ _).trans (if_neg ?_)
    rintro ⟨k1, k2⟩
    exact hpj o i hdom k1.symm k2.symm

theorem conc_store {m m1 m2 : conc.M} {o i : Nat} {v : CVal} (h1 : conc.wr m o i (cellOf v false) = some m1)
    (h2 : conc.wr m1 o (i + 1) (cellOf v true) = some m2) : store (D := conc) m o i v = some m2 := by
  cases v with
  | w x =>
    have : conc.wr m o i (.half (conc.lo x)) = some m1 := h1
    simp only [store, this]
    exact h2
  | a x =>
    have : conc.wr m o i (.frag x false) = some m1 := h1
    simp only [store, this]
    exact h2
  | undef =>
    have : conc.wr m o i .undef = some m1 := h1
    simp only [store, this]
    exact h2

theorem store_sim {m : conc.M} {m' m2' : S.M} {o i : Nat} {v : CVal} {v' : Val S.W} (h : R.RM X m m') (hv : R.RV X v v')
    (e : store m' o i v' = some m2') : ∃ m2, store (D := conc) m (X.ob o) (X.off o + i) v = some m2 ∧ R.RM X m2 m2' := by
  have key : ∀ c0 c1, R.RC X (cellOf v false) c0 → R.RC X (cellOf v true) c1 →
      (match S.wr m' o i c0 with | some m => S.wr m o (i + 1) c1 | none => none) = some m2' →
      ∃ m2, store (D := conc) m (X.ob o) (X.off o + i) v = some m2 ∧ R.RM X m2 m2' := by
    intro c0 c1 h0 h1 e
    cases ew : S.wr m' o i c0 with
    | none => simp [ew] at e
    | some m1' =>
      rw [ew] at e
      obtain ⟨m1, a1, a2⟩ := wr_sim h h0 ew
      obtain ⟨m2, b1, b2⟩ := wr_sim a2 h1 e
      exact ⟨m2, conc_store a1 b1, b2⟩
  cases v' with
  | w y =>
    obtain ⟨x, rfl, hx⟩ := hv
    exact key _ _ (RC_mk (R.lo hx)) (RC_mk (R.hi hx)) e
  | a z =>
    refine key (.frag z false) (.frag z true) ?_ ?_ e
    · cases z with
      | ptr o i => rw [show v = X.ptr o i from hv]; rfl
      | code n => rw [show v = .a (.code n) from hv]; rfl
      | opq k => rw [show v = X.env k from hv]; rfl
    · cases z with
      | ptr o i => rw [show v = X.ptr o i from hv]; rfl
      | code n => rw [show v = .a (.code n) from hv]; rfl
      | opq k => rw [show v = X.env k from hv]; rfl
  | undef => exact key .undef .undef trivial trivial e

theorem storeH_sim {m : conc.M} {m' m1' : S.M} {o i : Nat} {v : CVal} {v' : Val S.W} (h : R.RM X m m') (hv : R.RV X v v')
    (e : storeH m' o i v' = some m1') : ∃ m1, storeH (D := conc) m (X.ob o) (X.off o + i) v = some m1 ∧ R.RM X m1 m1' := by
  cases v' with
  | w y =>
    obtain ⟨x, rfl, hx⟩ := hv
    exact wr_sim h (RC_mk (R.lo hx)) e
  | a z => simp [storeH] at e
  | undef => simp [storeH] at e

theorem index_sim {v : CVal} {v' : Val S.W} {off : Int} {x : Idx} {a : Nat × Nat} {b' : Option (Val S.W)} (h : R.RV X v v')
    (e : index v' off x = some (a, b')) : ∃ b, index (D := conc) v off x = some ((X.ob a.1, X.off a.1 + a.2), b) ∧
      ((b = none ∧ b' = none) ∨ ∃ u u', b = some u ∧ b' = some u' ∧ R.RV X u u') := by
  cases x with
  | off =>
    simp only [index] at e ⊢
    cases ha : addr v' off with
    | none => simp [ha] at e
    | some a0 =>
      rw [ha] at e
      simp only [Option.some.injEq, Prod.mk.injEq] at e
      obtain ⟨rfl, rfl⟩ := e
      rw [addr_sim h ha]
      exact ⟨none, rfl, .inl ⟨rfl, rfl⟩⟩
  | pre =>
    simp only [index] at e ⊢
    cases ha : addr v' off with
    | none => simp [ha] at e
    | some a0 =>
      cases hb : addVal v' off with
      | none => simp [ha, hb] at e
      | some u' =>
        rw [ha, hb] at e
        simp only [Option.some.injEq, Prod.mk.injEq] at e
        obtain ⟨rfl, rfl⟩ := e
        obtain ⟨u, hu, ru⟩ := addVal_sim h hb
        rw [addr_sim h ha, hu]
        exact ⟨some u, rfl, .inr ⟨u, u', rfl, rfl, ru⟩⟩
  | post =>
    simp only [index] at e ⊢
    cases ha : addr v' 0 with
    | none => simp [ha] at e
    | some a0 =>
      cases hb : addVal v' off with
      | none => simp [ha, hb] at e
      | some u' =>
        rw [ha, hb] at e
        simp only [Option.some.injEq, Prod.mk.injEq] at e
        obtain ⟨rfl, rfl⟩ := e
        obtain ⟨u, hu, ru⟩ := addVal_sim h hb
        rw [addr_sim h ha, hu]
        exact ⟨some u, rfl, .inr ⟨u, u', rfl, rfl, ru⟩⟩

theorem wback_sim {s : State conc} {s' s1' : State S} (h : R.RS X s s') {r : Reg} {b : Option CVal} {b' : Option (Val S.W)}
    (hb : (b = none ∧ b' = none) ∨ ∃ u u', b = some u ∧ b' = some u' ∧ R.RV X u u')
    (e : wback s' r b' = some s1') : ∃ s1, wback (D := conc) s r b = some s1 ∧ R.RS X s1 s1' := by
  rcases hb with ⟨rfl, rfl⟩ | ⟨u, u', rfl, rfl, hu⟩
  · simp only [wback, Option.some.injEq] at e
    subst e
    exact ⟨s, rfl, h⟩
  · exact setV_sim h hu e

theorem pushAll_sim {s : State conc} {s' : State S} (h : R.RS X s s') (o : Nat) (l : List Reg) :
    ∀ (i : Nat) (m : conc.M) (m' m1' : S.M), R.RM X m m' → pushAll s' o i l m' = some m1' →
      ∃ m1, pushAll (D := conc) s (X.ob o) (X.off o + i) l m = some m1 ∧ R.RM X m1 m1' := by
  induction l with
  | nil =>
    intro i m m' m1' hm e
    simp only [pushAll, Option.some.injEq] at e
    subst e
    exact ⟨m, rfl, hm⟩
  | cons r l ih =>
    intro i m m' m1' hm e
    simp only [pushAll] at e ⊢
    cases hs : store m' o i (s'.get r) with
    | none => simp [hs] at e
    | some m2' =>
      rw [hs] at e
      obtain ⟨m2, a1, a2⟩ := store_sim hm (h.reg r) hs
      rw [a1]
      exact ih _ _ _ _ a2 e

theorem popAll_sim {m : conc.M} {m' : S.M} (hm : R.RM X m m') (o : Nat) (l : List Reg) :
    ∀ (i : Nat) (s : State conc) (s' s1' : State S), R.RS X s s' → popAll m' o i l s' = some s1' →
      ∃ s1, popAll (D := conc) m (X.ob o) (X.off o + i) l s = some s1 ∧ R.RS X s1 s1' := by
  induction l with
  | nil =>
    intro i s s' s1' h e
    simp only [popAll, Option.some.injEq] at e
    subst e
    exact ⟨s, rfl, h⟩
  | cons r l ih =>
    intro i s s' s1' h e
    simp only [popAll] at e ⊢
    cases hl : load m' o i with
    | none => simp [hl] at e
    | some v' =>
      rw [hl] at e
      obtain ⟨v, a1, a2⟩ := load_sim hm hl
      rw [a1]
      simp only at e ⊢
      cases hs : setV s' r v' with
      | none => simp [hs] at e
      | some s2' =>
        rw [hs] at e
        obtain ⟨s2, b1, b2⟩ := setV_sim h a2 hs
        rw [b1]
        exact ih _ _ _ _ b2 e

theorem compare_sim {x y : CVal} {x' y' : Val S.W} {f : Flags} (hx : R.RV X x x') (hy : R.RV X y y') (e : compare x' y' = some f) :
    compare (D := conc) x y = some f := by
  cases x' with
  | w a' =>
    cases y' with
    | w b' =>
      obtain ⟨a, rfl, ha⟩ := hx
      obtain ⟨b, rfl, hb⟩ := hy
      simp only [compare] at e ⊢
      cases ka : S.known a' with
      | none => simp [ka] at e
      | some n =>
        cases kb : S.known b' with
        | none => simp [ka, kb] at e
        | some k =>
          rw [ka, kb] at e
          have := R.known ha ka
          have := R.known hb kb
          subst_vars
          exact e
    | a b' => simp [compare] at e
    | undef => simp [compare] at e
  | undef => simp [compare] at e
  | a a' =>
    cases y' with
    | w b' => cases a' <;> simp [compare] at e
    | undef => cases a' <;> simp [compare] at e
    | a b' =>
      cases a' <;> cases b' <;> simp only [compare] at e <;> try (simp at e; done)
      rename_i o i o' i'
      rw [show x = X.ptr o i from hx, show y = X.ptr o' i' from hy]
      simp only [Option.ite_none_right_eq_some, Option.some.injEq] at e
      obtain ⟨rfl, rfl⟩ := e
      simp only [compare, Ctx.ptr, if_true, Option.some.injEq, Flags.mk.injEq, and_true]
      congr 1
      exact propext (by omega)

theorem step_sim (i : Ins) {s : State conc} {s' s1' : State S} (h : R.RS X s s') (e : step i s' = some s1') :
    ∃ s1, step (D := conc) i s = some s1 ∧ R.RS X s1 s1' := by
  induction i generalizing s1' with
  | op1 o rd rm =>
    have gen : op1W o rd rm s' = some s1' → ∃ s1, op1W o rd rm s = some s1 ∧ R.RS X s1 s1' := by
      intro e
      unfold op1W at e ⊢
      cases hx : asW (s'.get rm) with
      | none => simp [hx] at e
      | some y =>
        rw [hx] at e
        obtain ⟨x, a1, a2⟩ := asW_sim (h.reg rm) hx
        rw [a1]
        exact setW_sim h (R.op1 o a2) e
    cases o with
    | id => exact setV_sim h (h.reg rm) e
    | lsl n => simp only [step] at e ⊢; exact gen e
    | lsr n => simp only [step] at e ⊢; exact gen e
    | asr n => simp only [step] at e ⊢; exact gen e
    | ubfx n k => simp only [step] at e ⊢; exact gen e
    | movt n => simp only [step] at e ⊢; exact gen e
  | movi rd imm => exact setW_sim h (R.const imm) e
  | op2 o rd rn rm sh =>
    simp only [step] at e ⊢
    cases hx : asW (s'.get rn) with
    | none => simp [hx] at e
    | some y =>
      cases hx' : asW (s'.get rm) with
      | none => simp [hx, hx'] at e
      | some y' =>
        rw [hx, hx'] at e
        obtain ⟨x, a1, a2⟩ := asW_sim (h.reg rn) hx
        obtain ⟨x', b1, b2⟩ := asW_sim (h.reg rm) hx'
        rw [a1, b1]
        exact setW_sim h (R.op2 o a2 (R.op1 sh b2)) e
  | op3 o rd rn rm ra =>
    simp only [step] at e ⊢
    cases hx : asW (s'.get rn) with
    | none => simp [hx] at e
    | some y =>
      cases hx' : asW (s'.get rm) with
      | none => simp [hx, hx'] at e
      | some y' =>
        cases hx'' : asW (s'.get ra) with
        | none => simp [hx, hx', hx''] at e
        | some y'' =>
          rw [hx, hx', hx''] at e
          obtain ⟨x, a1, a2⟩ := asW_sim (h.reg rn) hx
          obtain ⟨x', b1, b2⟩ := asW_sim (h.reg rm) hx'
          obtain ⟨x'', c1, c2⟩ := asW_sim (h.reg ra) hx''
          rw [a1, b1, c1]
          exact setW_sim h (R.op3 o a2 b2 c2) e
  | addi rd rn imm =>
    simp only [step] at e ⊢
    cases hx : addVal (s'.get rn) imm with
    | none => simp [hx] at e
    | some u' =>
      rw [hx] at e
      obtain ⟨u, a1, a2⟩ := addVal_sim (h.reg rn) hx
      rw [a1]
      exact setV_sim h a2 e
  | ldr rd rn off x =>
    simp only [step] at e ⊢
    cases hx : index (s'.get rn) off x with
    | none => simp [hx] at e
    | some p =>
      obtain ⟨⟨o, i⟩, b'⟩ := p
      rw [hx] at e
      obtain ⟨b, a1, a2⟩ := index_sim (h.reg rn) hx
      rw [a1]
      simp only at e ⊢
      cases hl : load s'.mem o i with
      | none => simp [hl] at e
      | some v' =>
        rw [hl] at e
        obtain ⟨v, b1, b2⟩ := load_sim h.mem hl
        rw [b1]
        simp only at e ⊢
        cases hw : wback s' rn b' with
        | none => simp [hw] at e
        | some s2' =>
          rw [hw] at e
          obtain ⟨s2, c1, c2⟩ := wback_sim h a2 hw
          rw [c1]
          exact setV_sim c2 b2 e
  | ldrh rd rn off x =>
    simp only [step] at e ⊢
    cases hx : index (s'.get rn) off x with
    | none => simp [hx] at e
    | some p =>
      obtain ⟨⟨o, i⟩, b'⟩ := p
      rw [hx] at e
      obtain ⟨b, a1, a2⟩ := index_sim (h.reg rn) hx
      rw [a1]
      simp only at e ⊢
      cases hl : loadH s'.mem o i with
      | none => simp [hl] at e
      | some v' =>
        rw [hl] at e
        obtain ⟨v, b1, b2⟩ := loadH_sim h.mem hl
        rw [b1]
        simp only at e ⊢
        cases hw : wback s' rn b' with
        | none => simp [hw] at e
        | some s2' =>
          rw [hw] at e
          obtain ⟨s2, c1, c2⟩ := wback_sim h a2 hw
          rw [c1]
          exact setV_sim c2 b2 e
  | str rd rn off x =>
    simp only [step] at e ⊢
    cases hx : index (s'.get rn) off x with
    | none => simp [hx] at e
    | some p =>
      obtain ⟨⟨o, i⟩, b'⟩ := p
      rw [hx] at e
      obtain ⟨b, a1, a2⟩ := index_sim (h.reg rn) hx
      rw [a1]
      simp only at e ⊢
      cases hl : store s'.mem o i (s'.get rd) with
      | none => simp [hl] at e
      | some m' =>
        rw [hl] at e
        obtain ⟨m, b1, b2⟩ := store_sim h.mem (h.reg rd) hl
        rw [b1]
        simp only at e ⊢
        cases hw : wback s' rn b' with
        | none => simp [hw] at e
        | some s2' =>
          rw [hw] at e
          obtain ⟨s2, c1, c2⟩ := wback_sim h a2 hw
          rw [c1]
          simp only [Option.some.injEq] at e ⊢
          subst e
          exact ⟨_, rfl, c2.setMem b2⟩
  | strh rd rn off x =>
    simp only [step] at e ⊢
    cases hx : index (s'.get rn) off x with
    | none => simp [hx] at e
    | some p =>
      obtain ⟨⟨o, i⟩, b'⟩ := p
      rw [hx] at e
      obtain ⟨b, a1, a2⟩ := index_sim (h.reg rn) hx
      rw [a1]
      simp only at e ⊢
      cases hl : storeH s'.mem o i (s'.get rd) with
      | none => simp [hl] at e
      | some m' =>
        rw [hl] at e
        obtain ⟨m, b1, b2⟩ := storeH_sim h.mem (h.reg rd) hl
        rw [b1]
        simp only at e ⊢
        cases hw : wback s' rn b' with
        | none => simp [hw] at e
        | some s2' =>
          rw [hw] at e
          obtain ⟨s2, c1, c2⟩ := wback_sim h a2 hw
          rw [c1]
          simp only [Option.some.injEq] at e ⊢
          subst e
          exact ⟨_, rfl, c2.setMem b2⟩
  | push l =>
    simp only [step] at e ⊢
    cases hx : addVal (s'.get .sp) (-4 * l.length) with
    | none => simp [hx] at e
    | some u' =>
      rw [hx] at e
      obtain ⟨u, a1, a2⟩ := addVal_sim (h.reg .sp) hx
      rw [a1]
      simp only at e ⊢
      cases ha : addr u' 0 with
      | none => simp [ha] at e
      | some p =>
        obtain ⟨o, i⟩ := p
        rw [ha] at e
        rw [addr_sim a2 ha]
        simp only at e ⊢
        cases hp : pushAll s' o i l s'.mem with
        | none => simp [hp] at e
        | some m' =>
          rw [hp] at e
          obtain ⟨m, b1, b2⟩ := pushAll_sim h o l i s.mem s'.mem m' h.mem hp
          rw [b1]
          simp only [Option.some.injEq] at e ⊢
          subst e
          exact ⟨_, rfl, (h.set .sp a2).setMem b2⟩
  | pop l =>
    simp only [step] at e ⊢
    cases hx : addVal (s'.get .sp) (4 * l.length) with
    | none => simp [hx] at e
    | some u' =>
      cases ha : addr (s'.get .sp) 0 with
      | none => simp [hx, ha] at e
      | some p =>
        obtain ⟨o, i⟩ := p
        rw [hx, ha] at e
        obtain ⟨u, a1, a2⟩ := addVal_sim (h.reg .sp) hx
        rw [a1, addr_sim (h.reg .sp) ha]
        simp only at e ⊢
        cases hp : popAll s'.mem o i l s' with
        | none => simp [hp] at e
        | some s2' =>
          rw [hp] at e
          obtain ⟨s2, b1, b2⟩ := popAll_sim h.mem o l i s s' s2' h hp
          rw [b1]
          simp only [Option.some.injEq] at e ⊢
          subst e
          exact ⟨_, rfl, b2.set .sp a2⟩
  | cmp rn rm =>
    simp only [step] at e ⊢
    cases hx : compare (s'.get rn) (s'.get rm) with
    | none => simp [hx] at e
    | some f =>
      rw [hx] at e
      rw [compare_sim (h.reg rn) (h.reg rm) hx]
      simp only [Option.some.injEq] at e ⊢
      subst e
      exact ⟨_, rfl, h.setFl f⟩
  | cmpi rn imm =>
    simp only [step] at e ⊢
    cases hx : compare (s'.get rn) (.w (S.const imm)) with
    | none => simp [hx] at e
    | some f =>
      rw [hx] at e
      rw [compare_sim (h.reg rn) (y := .w (conc.const imm)) (RV_mk (R.const imm)) hx]
      simp only [Option.some.injEq] at e ⊢
      subst e
      exact ⟨_, rfl, h.setFl f⟩
  | bx rm =>
    simp only [step, Option.some.injEq] at e ⊢
    subst e
    exact ⟨_, rfl, h.set .pc (h.reg rm)⟩
  | ls i ih =>
    simp only [step] at e ⊢
    cases hf : s'.fl.ls with
    | none => simp [hf] at e
    | some b =>
      rw [hf] at e
      rw [h.fl.2 b hf]
      cases b with
      | true => exact ih e
      | false =>
        simp only [Option.some.injEq] at e
        subst e
        exact ⟨s, rfl, h⟩
  | ne i ih =>
    simp only [step] at e ⊢
    cases hf : s'.fl.eq with
    | none => simp [hf] at e
    | some b =>
      rw [hf] at e
      rw [h.fl.1 b hf]
      cases b with
      | false => exact ih e
      | true =>
        simp only [Option.some.injEq] at e
        subst e
        exact ⟨s, rfl, h⟩
  | s i ih =>
    simp only [step] at e ⊢
    cases hi : step i s' with
    | none => simp [hi] at e
    | some s2' =>
      rw [hi] at e
      obtain ⟨s2, a1, a2⟩ := ih hi
      rw [a1]
      simp only [Option.some.injEq] at e ⊢
      subst e
      exact ⟨_, rfl, a2.setFl _⟩
  | ldc rd n =>
    simp only [step, Option.some.injEq] at e ⊢
    subst e
    exact ⟨_, rfl, h.set rd rfl⟩

theorem steps_sim (l : List Ins) {s : State conc} {s' s1' : State S} (h : R.RS X s s') (e : steps l s' = some s1') :
    ∃ s1, steps (D := conc) l s = some s1 ∧ R.RS X s1 s1' := by
  induction l generalizing s s' with
  | nil =>
    simp only [steps, Option.some.injEq] at e
    subst e
    exact ⟨s, rfl, h⟩
  | cons i l ih =>
    simp only [steps] at e ⊢
    cases hi : step i s' with
    | none => simp [hi] at e
    | some s2' =>
      rw [hi] at e
      obtain ⟨s2, a1, a2⟩ := step_sim i h hi
      rw [a1]
      exact ih a2 e

theorem doNe_sim (body : List Ins) (n : Nat) {s : State conc} {s' s1' : State S} (h : R.RS X s s') (e : doNe body n s' = some s1') :
    ∃ s1, doNe (D := conc) body n s = some s1 ∧ R.RS X s1 s1' := by
  induction n generalizing s s' with
  | zero => simp [doNe] at e
  | succ n ih =>
    simp only [doNe] at e ⊢
    cases hi : steps body s' with
    | none => simp [hi] at e
    | some s2' =>
      rw [hi] at e
      obtain ⟨s2, a1, a2⟩ := steps_sim body h hi
      rw [a1]
      simp only at e ⊢
      cases hf : s2'.fl.eq with
      | none => simp [hf] at e
      | some b =>
        rw [hf] at e
        rw [a2.fl.1 b hf]
        cases b with
        | true =>
          simp only [Option.some.injEq] at e ⊢
          subst e
          exact ⟨s2, rfl, a2⟩
        | false => exact ih a2 e

/-- A function of the machine follows a function of the symbolic machine. -/
def FSim (R : Sim S) (X : Ctx) (f : State conc → Option (State conc)) (f' : State S → Option (State S)) : Prop :=
  ∀ s s' s1', R.RS X s s' → f' s' = some s1' → ∃ s1, f s = some s1 ∧ R.RS X s1 s1'

theorem callFn_sim {f : State conc → Option (State conc)} {f' : State S → Option (State S)} (hf : FSim R X f f') (ret : Nat)
    {s : State conc} {s' s1' : State S} (h : R.RS X s s') (e : callFn f' ret s' = some s1') :
    ∃ s1, callFn f ret s = some s1 ∧ R.RS X s1 s1' := by
  unfold callFn at e ⊢
  cases hi : f' (s'.set .lr (.a (.code ret))) with
  | none => simp [hi] at e
  | some s2' =>
    rw [hi] at e
    obtain ⟨s2, a1, a2⟩ := hf _ _ _ (h.set .lr (v := .a (.code ret)) (v' := .a (.code ret)) rfl) hi
    rw [a1]
    simp only at e ⊢
    have hp := a2.reg .pc
    change R.RV X s2.pc s2'.pc at hp
    cases hq : s2'.pc with
    | w x => simp [hq] at e
    | undef => simp [hq] at e
    | a x =>
      cases x with
      | ptr o i => simp [hq] at e
      | opq n => simp [hq] at e
      | code n =>
        rw [hq] at e hp
        rw [show s2.pc = .a (.code n) from hp]
        simp only at e ⊢
        split at e
        · simp only [Option.some.injEq] at e
          subst e
          rename_i hn
          rw [if_pos hn]
          exact ⟨s2, rfl, a2⟩
        · simp at e

theorem run_sim {f : Nat → State conc → Option (State conc)} {f' : Nat → State S → Option (State S)} (hf : ∀ k, FSim R X (f k) (f' k))
    (n : Nat) (p : List Stmt) : FSim R X (run f n p) (run f' n p) := by
  induction p generalizing n with
  | nil =>
    intro s s' s1' h e
    simp only [run, Option.some.injEq] at e
    subst e
    exact ⟨s, rfl, h⟩
  | cons i l ih =>
    intro s s' s1' h e
    cases i with
    | ins b =>
      simp only [run] at e ⊢
      cases hi : steps b s' with
      | none => simp [hi] at e
      | some s2' =>
        rw [hi] at e
        obtain ⟨s2, a1, a2⟩ := steps_sim b h hi
        rw [a1]
        exact ih n _ _ _ a2 e
    | loop b =>
      simp only [run] at e ⊢
      cases hi : doNe b 256 s' with
      | none => simp [hi] at e
      | some s2' =>
        rw [hi] at e
        obtain ⟨s2, a1, a2⟩ := doNe_sim b 256 h hi
        rw [a1]
        exact ih n _ _ _ a2 e
    | call k =>
      simp only [run] at e ⊢
      cases hi : callFn (f' k) n s' with
      | none => simp [hi] at e
      | some s2' =>
        rw [hi] at e
        obtain ⟨s2, a1, a2⟩ := callFn_sim (hf k) n h hi
        rw [a1]
        exact ih (n + 1) _ _ _ a2 e

theorem fsim_none (f : State conc → Option (State conc)) : FSim R X f (fun _ : State S => none) := by
  intro s s' s1' h e
  simp at e

theorem zeros_sim (o n : Nat) : ∀ (i : Nat) (m : conc.M) (m' m1' : S.M), R.RM X m m' → zeros o n i m' = some m1' →
    ∃ m1, zeros (D := conc) (X.ob o) n (X.off o + i) m = some m1 ∧ R.RM X m1 m1' := by
  induction n with
  | zero =>
    intro i m m' m1' h e
    simp only [zeros, Option.some.injEq] at e
    subst e
    exact ⟨m, rfl, h⟩
  | succ n ih =>
    intro i m m' m1' h e
    simp only [zeros] at e ⊢
    cases hw : S.wr m' o i (.half S.zero) with
    | none => simp [hw] at e
    | some m2' =>
      rw [hw] at e
      obtain ⟨m2, a1, a2⟩ := wr_sim (c := .half conc.zero) h (RC_mk R.zero) hw
      rw [a1]
      exact ih _ _ _ _ a2 e

theorem memset0_sim : FSim R X memset0 memset0 := by
  intro s s' s1' h e
  unfold memset0 at e ⊢
  have g0 : R.RV X s.r0 s'.r0 := h.reg .r0
  have g1 : R.RV X s.r1 s'.r1 := h.reg .r1
  have g2 : R.RV X s.r2 s'.r2 := h.reg .r2
  have g3 : R.RV X s.lr s'.lr := h.reg .lr
  cases hx : addr s'.r0 0 with
  | none => simp [hx] at e
  | some p =>
    obtain ⟨o, i⟩ := p
    cases hc : asW s'.r1 with
    | none => simp [hx, hc] at e
    | some c' =>
      cases hn : asW s'.r2 with
      | none => simp [hx, hc, hn] at e
      | some n' =>
        rw [hx, hc, hn] at e
        obtain ⟨c, a1, a2⟩ := asW_sim g1 hc
        obtain ⟨n, b1, b2⟩ := asW_sim g2 hn
        rw [addr_sim g0 hx, a1, b1]
        simp only at e ⊢
        cases kc : S.known c' with
        | none => simp [kc] at e
        | some c0 =>
          cases kn : S.known n' with
          | none => rw [kc, kn] at e; cases c0 <;> simp at e
          | some n0 =>
            rw [kc, kn] at e
            have hc0 : conc.known c = some c0 := congrArg some (R.known a2 kc)
            have hn0 : conc.known n = some n0 := congrArg some (R.known b2 kn)
            rw [hc0, hn0]
            cases c0 with
            | succ c0 => simp at e
            | zero =>
              simp only at e ⊢
              split at e
              · rename_i he
                rw [if_pos he]
                cases hz : zeros o (n0 / 2) i s'.mem with
                | none => simp [hz] at e
                | some m' =>
                  rw [hz] at e
                  obtain ⟨m, d1, d2⟩ := zeros_sim o (n0 / 2) i s.mem s'.mem m' h.mem hz
                  rw [d1]
                  simp only [Option.some.injEq] at e ⊢
                  subst e
                  have q {v : CVal} : R.RV X v .undef := by cases v <;> exact trivial
                  exact ⟨_, rfl, (((((((h.set .r1 q).set .r2 q).set .r3 q).set .ip q).set .pc g3).set .lr q).setMem d2).setFl _⟩
              · simp at e

end Saber.Arm
