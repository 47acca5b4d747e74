import Verif.Proof.Arm.Taint
import Verif.Proof.Arm.KSim
/-!
# A domain that knows public constants only, and the runs of the assembly functions on it

A word is a known constant or unknown.  The arrays of the caller hold unknown numbers, so that a run that completes has not used the data
for an address or for a decision.
-/
namespace Saber.Arm

/-- Words and halfwords: a known constant, or unknown. -/
abbrev TW := Option Nat

def TW.force {α : Type} (w : TW) (k : TW → α) : α :=
  match w with
  | none => k none
  | some n => forceN n fun n => k (some n)

/-- Reads.  Object `k` is the stack, object `p` holds the constants `pub`, and all other objects hold unknown numbers. -/
def trd (k p : Nat) (pub : T Nat) (m : T (Cell TW)) (o i : Nat) : Option (Cell TW) :=
  match Nat.beq o k with
  | true => m.get i
  | false => match Nat.beq o p with
    | true => match pub.get i with
      | some n => some (.half (some n))
      | none => none
    | false => some (.half none)

/-- Writes.  The constants are not written. -/
def twr (k p : Nat) (m : T (Cell TW)) (o i : Nat) (c : Cell TW) : Option (T (Cell TW)) :=
  match Nat.beq o k with
  | true => m.setK i c some
  | false => match Nat.beq o p with
    | true => none
    | false => match c with
      | .half _ => some m
      | _ => none

theorem twr_trd {k p : Nat} {pub : T Nat} {m m' : T (Cell TW)} {o i : Nat} {c : Cell TW} (e : twr k p m o i c = some m') (o' i' : Nat)
    (d : Cell TW) (hd : trd k p pub m' o' i' = some d) : if o' = o ∧ i' = i then d = c ∨ ∃ y, c = .half y ∧ d = .half none else trd k p pub m o' i' = some d := by
  unfold twr at e
  cases hk : Nat.beq o k with
  | true =>
    rw [hk] at e
    have hok : o = k := Nat.eq_of_beq_eq_true hk
    subst hok
    obtain ⟨t', e1, -, e2⟩ := T.setK_get m i c some m' e
    cases e1
    unfold trd at hd ⊢
    cases hk' : Nat.beq o' o with
    | true =>
      have := Nat.eq_of_beq_eq_true hk'
      subst this
      rw [hk'] at hd
      simp only at hd
      rw [e2] at hd
      by_cases h2 : i' = i
      · rw [if_pos h2] at hd
        rw [if_pos ⟨rfl, h2⟩]
        exact .inl (Option.some.inj hd).symm
      · rw [if_neg h2] at hd
        rw [if_neg (fun h => h2 h.2)]
        exact hd
    | false =>
      rw [hk'] at hd
      rw [if_neg (fun h => by rw [h.1, hk] at hk'; cases hk')]
      exact hd
  | false =>
    rw [hk] at e
    cases hp : Nat.beq o p with
    | true => rw [hp] at e; cases e
    | false =>
      rw [hp] at e
      cases c with
      | frag x b => cases e
      | undef => cases e
      | half y =>
        cases e
        by_cases h : o' = o ∧ i' = i
        · rw [if_pos h]
          unfold trd at hd
          rw [h.1, hk, hp] at hd
          cases hd
          exact .inr ⟨y, rfl, rfl⟩
        · rw [if_neg h]
          exact hd

/-- The domain.  Object `k` is the stack, object `p` holds the constants `pub`, and all other objects hold unknown numbers. -/
def tdom (k p : Nat) (pub : T Nat) : Dom where
  W := TW
  H := TW
  M := T (Cell TW)
  lo x := match x with
    | some n => some (n.mod 65536)
    | none => none
  hi x := match x with
    | some n => some (n.div 65536)
    | none => none
  join l h := match l, h with
    | some l, some h => some ((h.mul 65536).add l)
    | _, _ => none
  zero := some 0
  const n := some (n.mod 4294967296)
  known x := x
  op1 _ _ := none
  op2 _ _ _ := none
  op3 _ _ _ _ := none
  rd := trd k p pub
  wr := twr k p
  force := TW.force

/-- A known constant is the value. -/
def TRW {n : Nat} (x : BitVec n) (y : TW) : Prop := ∀ m, y = some m → x.toNat = m

/-- A machine with unknown halfwords in the objects other than the stack and the constants. -/
def tsim (k p : Nat) (pub : T Nat) : TSim (tdom k p pub) where
  RH := TRW
  RW := TRW
  lo := by
    intro x y h m hm
    cases y with
    | none => cases hm
    | some n =>
      cases hm
      have := h n rfl
      subst this
      exact BitVec.toNat_setWidth _ _
  hi := by
    intro x y h m hm
    cases y with
    | none => cases hm
    | some n =>
      cases hm
      have := h n rfl
      subst this
      have e : (chi x).toNat = x.toNat / 65536 := by
        unfold chi
        rw [BitVec.toNat_setWidth, BitVec.toNat_ushiftRight, Nat.shiftRight_eq_div_pow]
        have := x.isLt
        omega
      exact e
  join := by
    intro l l' h h' hl hh m hm
    cases l' with
    | none => cases hm
    | some a =>
      cases h' with
      | none => cases hm
      | some b =>
        cases hm
        have := hl a rfl
        have := hh b rfl
        subst_vars
        rw [BitVec.toNat_append, ← Nat.shiftLeft_add_eq_or_of_lt l.isLt, Nat.shiftLeft_eq]
        rfl
  zero := by
    intro m hm
    cases hm
    rfl
  const := by
    intro n m hm
    cases hm
    exact BitVec.toNat_ofNat _ _
  known := fun h e => h _ e
  op1 := fun _ {_ _} _ _ hm => nomatch hm
  op2 := fun _ {_ _ _ _} _ _ _ hm => nomatch hm
  op3 := fun _ {_ _ _ _ _ _} _ _ _ _ hm => nomatch hm
  wr := by
    intro m o i c m' e o' i' d hd
    have q := twr_trd e o' i' d hd
    by_cases h : o' = o ∧ i' = i
    · rw [if_pos h] at q ⊢
      rcases q with q | ⟨y, q1, q2⟩
      · exact .inl q
      · exact .inr ⟨y, none, q1, q2, fun x m hm => nomatch hm⟩
    · rw [if_neg h] at q ⊢
      exact q
  force := by
    intro α x f
    cases x with
    | none => rfl
    | some n => exact forceN_eq n fun n => f (some n)

/-- The state in which a function is called: pointers to the objects `0`, … in the first `a` registers, the end of the stack of `n`
halfwords in `sp`, the return address in `lr`, and unknown values in all other registers. -/
def tStart (k p : Nat) (pub : T Nat) (a n d : Nat) : State (tdom k p pub) where
  r0 := .a (.ptr 0 0)
  r1 := if 1 < a then .a (.ptr 1 0) else .a (.opq 0)
  r2 := if 2 < a then .a (.ptr 2 0) else .a (.opq 0)
  r3 := if 3 < a then .a (.ptr 3 0) else .a (.opq 0)
  r4 := .a (.opq 0)
  r5 := .a (.opq 0)
  r6 := .a (.opq 0)
  r7 := .a (.opq 0)
  r8 := .a (.opq 0)
  r9 := .a (.opq 0)
  sl := .a (.opq 0)
  fp := .a (.opq 0)
  ip := .a (.opq 0)
  sp := .a (.ptr k (2 * n))
  lr := .a (.code 99)
  pc := .a (.opq 0)
  mem := T.build (fun _ => .undef) n d 1 0
  fl := ⟨none, none⟩

def isS {α : Type} : Option α → Bool
  | some _ => true
  | none => false

set_option maxRecDepth 100000 in
theorem toomF_taint : isS (toomF (tdom 3 4 .e) (tStart 3 4 .e 3 1776 12)) = true := by decide +kernel

/-- The halfwords of the round constants. -/
def pubRC : T Nat := T.build (fun i => match (Keccak.words Keccak.roundConstants)[i]? with
  | some (.half x) => x.toNat
  | _ => 0) 98 10 1 0

set_option maxRecDepth 100000 in
theorem permF_taint : isS (Keccak.permF (tdom 2 1 pubRC) (tStart 2 1 pubRC 1 32 8)) = true := by decide +kernel

set_option maxRecDepth 100000 in
theorem karaF_taint : isS (karaF (tdom 4 5 .e) (tStart 4 5 .e 4 30 8)) = true := by decide +kernel

theorem isS_some {α : Type} {x : Option α} (h : isS x = true) : ∃ y, x = some y := by
  cases x with
  | none => cases h
  | some y => exact ⟨y, rfl⟩

/-- The memory at the call. -/
theorem start_RM {k p : Nat} {pub : T Nat} {m : conc.M} (n d : Nat)
    (hd : ∀ o i c, o ≠ k → conc.rd m o i = some c → ∃ x, c = .half x)
    (hp : p ≠ k → ∀ i x y, conc.rd m p i = some (.half x) → pub.get i = some y → x.toNat = y) :
    (tsim k p pub).RM m (T.build (fun _ => (.undef : Cell TW)) n d 1 0) := by
  intro o i c c' h h'
  have h' : trd k p pub (T.build (fun _ => .undef) n d 1 0) o i = some c' := h'
  unfold trd at h'
  cases hk : Nat.beq o k with
  | true =>
    rw [hk] at h'
    have := (T.get_build _ _ _ _ _ _ _ (by decide) h').2
    subst this
    trivial
  | false =>
    have hok : o ≠ k := fun e => by subst e; rw [Nat.beq_refl] at hk; cases hk
    rw [hk] at h'
    obtain ⟨x, rfl⟩ := hd o i c hok h
    cases hq : Nat.beq o p with
    | true =>
      rw [hq] at h'
      have hop : o = p := Nat.eq_of_beq_eq_true hq
      subst hop
      cases hg : pub.get i with
      | none => rw [hg] at h'; cases h'
      | some y =>
        rw [hg] at h'
        cases h'
        refine ⟨x, rfl, fun z hz => ?_⟩
        cases hz
        exact hp hok i x _ h hg
    | false =>
      rw [hq] at h'
      cases h'
      exact ⟨x, rfl, fun z hz => nomatch hz⟩

theorem halves_half {a : List (BitVec 16)} {i : Nat} {c : Cell (BitVec 16)} (h : (halves a)[i]? = some c) : ∃ x, c = .half x := by
  unfold halves at h
  rw [List.getElem?_map, Option.map_eq_some_iff] at h
  obtain ⟨x, -, rfl⟩ := h
  exact ⟨x, rfl⟩

theorem words_half {a : List (BitVec 32)} : ∀ {i : Nat} {c : Cell (BitVec 16)}, (Keccak.words a)[i]? = some c → ∃ x, c = .half x := by
  induction a with
  | nil => intro i c h; simp [Keccak.words] at h
  | cons x l ih =>
    intro i c h
    match i with
    | 0 => exact ⟨_, (Option.some.inj h).symm⟩
    | 1 => exact ⟨_, (Option.some.inj h).symm⟩
    | i + 2 => exact ih (i := i) h

theorem karaStart_T (g : Reg → Val conc.W) (k : M4.K4) (stk : List (Cell (BitVec 16))) (hs : stk.length = 30) :
    (tsim 4 5 .e).RS (karaStart g k stk) (tStart 4 5 .e 4 30 8) := by
  refine ⟨fun r => ?_, start_RM 30 8 ?_ (fun _ i x y _ h => nomatch h), rfl⟩
  · cases r <;> first | rfl | trivial | (show Val.a (Atom.ptr 4 (2 * stk.length)) = _; rw [hs])
  · intro o i c hk h
    match o with
    | 0 => exact halves_half h
    | 1 => exact halves_half h
    | 2 => exact halves_half h
    | 3 => exact halves_half h
    | 4 => exact absurd rfl hk
    | _ + 5 => cases h

theorem toomStart_T (g : Reg → Val conc.W) (a b res : List (BitVec 16)) (stk : List (Cell (BitVec 16))) (hs : stk.length = 1776) :
    (tsim 3 4 .e).RS (toomStart g a b res stk) (tStart 3 4 .e 3 1776 12) := by
  refine ⟨fun r => ?_, start_RM 1776 12 ?_ (fun _ i x y _ h => nomatch h), rfl⟩
  · cases r <;> first | rfl | trivial | (show Val.a (Atom.ptr 3 (2 * stk.length)) = _; rw [hs])
  · intro o i c hk h
    match o with
    | 0 => exact halves_half h
    | 1 => exact halves_half h
    | 2 => exact halves_half h
    | 3 => exact absurd rfl hk
    | _ + 4 => cases h

theorem permStart_T (g : Reg → Val conc.W) (w : List (BitVec 32)) (stk : List (Cell (BitVec 16))) (hs : stk.length = 32) :
    (tsim 2 1 pubRC).RS (Keccak.permStart g w stk) (tStart 2 1 pubRC 1 32 8) := by
  refine ⟨fun r => ?_, start_RM 32 8 ?_ (fun _ i x y h h' => ?_), rfl⟩
  · cases r <;> first | rfl | trivial | (show Val.a (Atom.ptr 2 (2 * stk.length)) = _; rw [hs])
  · intro o i c hk h
    match o with
    | 0 => exact words_half h
    | 1 => exact words_half h
    | 2 => exact absurd rfl hk
    | _ + 3 => cases h
  · have h : (Keccak.words Keccak.roundConstants)[i]? = some (.half x) := h
    have := (T.get_build _ _ _ _ _ _ _ (by decide) h').2
    rw [Nat.one_mul, Nat.add_zero, h] at this
    exact this.symm

theorem kara_events {g : Reg → Val conc.W} {k : M4.K4} {stk : List (Cell (BitVec 16))} {t : State conc} (hs : stk.length = 30)
    (h : karaF conc (karaStart g k stk) = some t) : karaEv conc (karaStart g k stk) = karaEv _ (tStart 4 5 .e 4 30 8) := by
  obtain ⟨t', h'⟩ := isS_some karaF_taint
  exact ((tsim 4 5 .e).karaF_T (karaStart_T g k stk hs) h h').2

theorem toom_events {g : Reg → Val conc.W} {a b res : List (BitVec 16)} {stk : List (Cell (BitVec 16))} {t : State conc}
    (hs : stk.length = 1776) (h : toomF conc (toomStart g a b res stk) = some t) :
    toomEv conc (toomStart g a b res stk) = toomEv _ (tStart 3 4 .e 3 1776 12) := by
  obtain ⟨t', h'⟩ := isS_some toomF_taint
  exact ((tsim 3 4 .e).toomF_T (toomStart_T g a b res stk hs) h h').2

theorem perm_events {g : Reg → Val conc.W} {w : List (BitVec 32)} {stk : List (Cell (BitVec 16))} {t : State conc}
    (hs : stk.length = 32) (h : Keccak.permF conc (Keccak.permStart g w stk) = some t) :
    permEv conc (Keccak.permStart g w stk) = permEv _ (tStart 2 1 pubRC 1 32 8) := by
  obtain ⟨t', h'⟩ := isS_some permF_taint
  exact ((tsim 2 1 pubRC).permF_T (permStart_T g w stk hs) h h').2

end Saber.Arm
