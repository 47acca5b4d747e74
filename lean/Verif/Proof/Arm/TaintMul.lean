import Verif.Proof.Arm.TaintDom
import Verif.Model.Arm.ObsMul
/-!
# Accesses and decisions of `polymul_asm` and `toom_cook_4way_striding_asm`
-/
namespace Saber.Arm

namespace TSim
variable {S : Dom}

theorem polymulF_T (R : TSim S) : FnT R (polymulF conc) (polymulEv conc) (polymulF S) (polymulEv S) :=
  run_T (fun k => match k with
    | 0 => mulF_T R
    | _ + 1 => noFn_T R) _ _

theorem karaRA_T (R : TSim S) {x : BitVec 32} {y : S.W} (hx : R.RW x y) : FnT R (karaRA conc x) (karaEv conc) (karaRA S y) (karaEv S) := by
  intro s t s' t' h e e'
  simp only [karaRA] at e e'
  split at e <;> [rename_i s1 h1; cases e]
  split at e' <;> [rename_i s1' h1'; cases e']
  obtain ⟨g1, g2⟩ := karaF_T R h h1 h1'
  split at e <;> [skip; cases e]
  split at e' <;> [skip; cases e']
  cases e
  cases e'
  exact ⟨g1.set .lr (v' := .w y) ⟨x, rfl, hx⟩, g2⟩

theorem tcF_T (R : TSim S) {x : BitVec 32} {y : S.W} (hx : R.RW x y) : FnT R (tcF conc x) (tcEv conc x) (tcF S y) (tcEv S y) :=
  run_T (fun k => match k with
    | 0 => karaF_T R
    | 1 => karaRA_T R hx
    | _ + 2 => noFn_T R) _ _

end TSim

set_option maxRecDepth 100000 in
theorem polymulF_taint : isS (polymulF (tdom 3 4 .e) (tStart 3 4 .e 3 1896 12)) = true := by decide +kernel

set_option maxRecDepth 100000 in
theorem tcF_taint : isS (tcF (tdom 3 4 .e) none (tStart 3 4 .e 3 886 11)) = true := by decide +kernel

theorem polymulStart_T (g : Reg → Val conc.W) (r a b : List (BitVec 16)) (stk : List (Cell (BitVec 16))) (hs : stk.length = 1896) :
    (tsim 3 4 .e).RS (polymulStart g (halves r) a b stk) (tStart 3 4 .e 3 1896 12) := by
  refine ⟨fun r => ?_, start_RM 1896 12 ?_ (fun _ i x y _ h => nomatch h), rfl⟩
  · cases r <;> first | rfl | trivial | (show Val.a (Atom.ptr 3 (2 * stk.length)) = _; rw [hs])
  · intro o i c hk h
    match o with
    | 0 => exact halves_half h
    | 1 => exact halves_half h
    | 2 => exact halves_half h
    | 3 => exact absurd rfl hk
    | _ + 4 => cases h

theorem tcStart_T (g : Reg → Val conc.W) (a b res : List (BitVec 16)) (stk : List (Cell (BitVec 16))) (hs : stk.length = 886) :
    (tsim 3 4 .e).RS (toomStart g a b res stk) (tStart 3 4 .e 3 886 11) := by
  refine ⟨fun r => ?_, start_RM 886 11 ?_ (fun _ i x y _ h => nomatch h), rfl⟩
  · cases r <;> first | rfl | trivial | (show Val.a (Atom.ptr 3 (2 * stk.length)) = _; rw [hs])
  · intro o i c hk h
    match o with
    | 0 => exact halves_half h
    | 1 => exact halves_half h
    | 2 => exact halves_half h
    | 3 => exact absurd rfl hk
    | _ + 4 => cases h

theorem polymul_events {g : Reg → Val conc.W} {r a b : List (BitVec 16)} {stk : List (Cell (BitVec 16))} {t : State conc} (hs : stk.length = 1896)
    (h : polymulF conc (polymulStart g (halves r) a b stk) = some t) :
    polymulEv conc (polymulStart g (halves r) a b stk) = polymulEv _ (tStart 3 4 .e 3 1896 12) := by
  obtain ⟨t', h'⟩ := isS_some polymulF_taint
  exact ((tsim 3 4 .e).polymulF_T (polymulStart_T g r a b stk hs) h h').2

theorem tc_events {ra : BitVec 32} {g : Reg → Val conc.W} {a b res : List (BitVec 16)} {stk : List (Cell (BitVec 16))} {t : State conc}
    (hs : stk.length = 886) (h : tcF conc ra (toomStart g a b res stk) = some t) :
    tcEv conc ra (toomStart g a b res stk) = tcEv _ none (tStart 3 4 .e 3 886 11) := by
  obtain ⟨t', h'⟩ := isS_some tcF_taint
  exact ((tsim 3 4 .e).tcF_T (x := ra) (y := none) (fun _ hm => nomatch hm) (tcStart_T g a b res stk hs) h h').2

end Saber.Arm
