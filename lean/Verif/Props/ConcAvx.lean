import Verif.Model.Conc.Avx
/-!
# C89: the global vectors of the AVX2 implementations

Whatever the global variables hold at the start (whatever was called before), however many threads call the functions of the encryption
scheme, and however their accesses are interleaved, every word that a function uses is the word of the constant that the other theorems
about the AVX2 implementations assume.  So the results of a call depend on its arguments only.
-/
namespace Saber.Props
open Conc.Avx

/-- The words that the variables should hold; all four words of a variable are equal. -/
def avxConst (h1 h2 : BitVec 16) : G → BitVec 64
  | .mask_ar => BitVec.allOnes 64
  | .mask_load => BitVec.allOnes 64
  | .mask => BitVec.allOnes 64
  | .floor_round => word16 4
  | .H1_avx => word16 h1
  | .H2_avx => word16 h2
  | .inv3_avx => word16 43691
  | .inv9_avx => word16 36409
  | .inv15_avx => word16 61167
  | .int45_avx => word16 45
  | .int30_avx => word16 30
  | .int0_avx => word16 0
  | .avx_epi64 k => BitVec.ofNat 64 (2 ^ (k.val + 1) - 1)
  | .avx_epi32 k => word32 (BitVec.ofNat 32 (2 ^ (k.val + 1) - 1))

/-- The accesses `ops` use only words that are known to be right: those in `K`, and those assigned before. -/
def Fine (e : G → BitVec 64) (K : List (G × Nat)) (R : List Nat) : List Op → Prop
  | [] => True
  | .set g l v :: r => v = e g ∧ Fine e ((g, l) :: K) R r
  | .ldm l :: r => (.mask_ar, l) ∈ K ∧ Fine e K (l :: R) r
  | .str g l :: r => l ∈ R ∧ e g = e .mask_ar ∧ Fine e ((g, l) :: K) R r
  | .use g l :: r => (g, l) ∈ K ∧ Fine e K R r

theorem Fine.mono {e : G → BitVec 64} (ops : List Op) : ∀ {K K' : List (G × Nat)} {R R' : List Nat}, K ⊆ K' → R ⊆ R' → Fine e K R ops →
    Fine e K' R' ops := by
  induction ops with
  | nil => intros; trivial
  | cons o r ih =>
    intro K K' R R' hK hR h
    cases o with
    | set g l v => exact ⟨h.1, ih (List.cons_subset_cons _ hK) hR h.2⟩
    | ldm l => exact ⟨hK h.1, ih hK (List.cons_subset_cons _ hR) h.2⟩
    | str g l => exact ⟨hR h.1, h.2.1, ih (List.cons_subset_cons _ hK) hR h.2.2⟩
    | use g l => exact ⟨hK h.1, ih hK hR h.2⟩

/-- The words known to be right after the assignments of `ops`. -/
def known : List (G × Nat) → List Op → List (G × Nat)
  | K, [] => K
  | K, .set g l _ :: r => known ((g, l) :: K) r
  | K, .ldm _ :: r => known K r
  | K, .str g l :: r => known ((g, l) :: K) r
  | K, .use _ _ :: r => known K r

theorem Fine.append {e : G → BitVec 64} (a b : List Op) : ∀ {K : List (G × Nat)} {R : List Nat}, Fine e K R a → Fine e (known K a) [] b →
    Fine e K R (a ++ b) := by
  induction a with
  | nil => intro K R _ h; exact Fine.mono b (List.Subset.refl _) (List.nil_subset _) h
  | cons o r ih =>
    intro K R ha hb
    cases o with
    | set g l v => exact ⟨ha.1, ih ha.2 hb⟩
    | ldm l => exact ⟨ha.1, ih ha.2 hb⟩
    | str g l => exact ⟨ha.1, ha.2.1, ih ha.2.2 hb⟩
    | use g l => exact ⟨ha.1, ih ha.2 hb⟩

/-- What holds of a thread at all times. -/
def ThreadOk (e : G → BitVec 64) (mem : G → Nat → BitVec 64) (t : Thread) : Prop :=
  (∀ g l v, (g, l, v) ∈ t.used → v = e g) ∧
  ∃ K R, (∀ g l, (g, l) ∈ K → mem g l = e g) ∧ (∀ l ∈ R, t.reg l = e .mask_ar) ∧ Fine e K R t.todo

/-- One access keeps the invariant of the thread, and every word that held its constant still does. -/
theorem step_ok {e : G → BitVec 64} {mem : G → Nat → BitVec 64} {t : Thread} (h : ThreadOk e mem t) :
    ThreadOk e (t.step mem).1 (t.step mem).2 ∧ ∀ g l, mem g l = e g → (t.step mem).1 g l = e g := by
  obtain ⟨hu, K, R, hK, hR, hF⟩ := h
  unfold Thread.step
  cases ho : t.todo with
  | nil => rw [ho] at hF; exact ⟨⟨hu, K, R, hK, hR, by rw [ho]; exact hF⟩, fun _ _ h => h⟩
  | cons o r =>
    rw [ho] at hF
    cases o with
    | set g l v =>
      obtain ⟨hv, hF⟩ := hF
      have keep : ∀ g' l', mem g' l' = e g' → upd mem g l v g' l' = e g' := by
        intro g' l' h
        unfold upd
        split
        · rename_i c; rw [c.1]; exact hv
        · exact h
      refine ⟨⟨hu, (g, l) :: K, R, fun g' l' hm => ?_, hR, hF⟩, keep⟩
      rcases List.mem_cons.1 hm with hm | hm
      · cases hm
        show upd mem g l v g l = e g
        unfold upd; rw [if_pos ⟨rfl, rfl⟩]; exact hv
      · exact keep g' l' (hK g' l' hm)
    | ldm l =>
      obtain ⟨hl, hF⟩ := hF
      refine ⟨⟨hu, K, l :: R, hK, fun l' hm => ?_, hF⟩, fun _ _ h => h⟩
      dsimp only
      split
      · exact hK _ _ hl
      · rename_i c; exact hR l' ((List.mem_cons.1 hm).resolve_left c)
    | str g l =>
      obtain ⟨hl, he, hF⟩ := hF
      have hv : t.reg l = e g := (hR l hl).trans he.symm
      have keep : ∀ g' l', mem g' l' = e g' → upd mem g l (t.reg l) g' l' = e g' := by
        intro g' l' h
        unfold upd
        split
        · rename_i c; rw [c.1]; exact hv
        · exact h
      refine ⟨⟨hu, (g, l) :: K, R, fun g' l' hm => ?_, hR, hF⟩, keep⟩
      rcases List.mem_cons.1 hm with hm | hm
      · cases hm
        show upd mem g l (t.reg l) g l = e g
        unfold upd; rw [if_pos ⟨rfl, rfl⟩]; exact hv
      · exact keep g' l' (hK g' l' hm)
    | use g l =>
      obtain ⟨hl, hF⟩ := hF
      refine ⟨⟨fun g' l' v hm => ?_, K, R, hK, hR, hF⟩, fun _ _ h => h⟩
      rcases List.mem_append.1 hm with hm | hm
      · exact hu g' l' v hm
      · rw [List.mem_singleton] at hm
        cases hm; exact hK g l hl

theorem exec_ok {e : G → BitVec 64} (sched : List Nat) : ∀ s : State, (∀ t ∈ s.thr, ThreadOk e s.mem t) →
    ∀ t ∈ (State.exec sched s).thr, ThreadOk e (State.exec sched s).mem t := by
  induction sched with
  | nil => intro s h; exact h
  | cons i sched ih =>
    intro s h
    refine ih _ ?_
    unfold State.step
    cases ht : s.thr[i]? with
    | none => exact h
    | some t =>
      obtain ⟨h1, h2⟩ := step_ok (h t (List.mem_of_getElem? ht))
      intro u hu
      rcases List.mem_or_eq_of_mem_set hu with hm | hm
      · obtain ⟨a, K, R, hK, hR, hF⟩ := h u hm
        exact ⟨a, K, R, fun g l hgl => h2 g l (hK g l hgl), hR, hF⟩
      · rw [hm]; exact h1

/-- The words that a function may use are among those it has assigned. -/
theorem prologue_known (x4 : Bool) (h1 h2 : BitVec 16) (f : Fn) : ∀ g ∈ reads x4 f, ∀ l, l < 4 → (g, l) ∈ known [] (prologue x4 h1 h2 f) := by
  have key : ∀ x4 : Bool, ∀ f : Fn, ∀ g ∈ reads x4 f, ∀ l ∈ List.range 4, (g, l) ∈ known [] (prologue x4 h1 h2 f) := by
    intro x4 f
    cases x4 <;> cases f <;> simp [reads, prologue, load_values, init_aux_avx, setAll, loadMask, known, List.finRange, List.range_succ]
  intro g hg l hl
  exact key x4 f g hg l (List.mem_range.2 hl)

set_option maxRecDepth 10000 in
theorem prologue_fine (x4 : Bool) (h1 h2 : BitVec 16) (f : Fn) : Fine (avxConst h1 h2) [] [] (prologue x4 h1 h2 f) := by
  cases x4 <;> cases f <;>
    simp [prologue, load_values, init_aux_avx, setAll, loadMask, Fine, avxConst, ones, List.finRange]

/-- A list of calls that use only what the functions use. -/
def CallsOk (x4 : Bool) (cs : List Call) : Prop := ∀ c ∈ cs, ∀ u ∈ c.uses, u.1 ∈ reads x4 c.fn ∧ u.2 < 4

theorem calls_fine (x4 : Bool) (h1 h2 : BitVec 16) (cs : List Call) (h : CallsOk x4 cs) :
    Fine (avxConst h1 h2) [] [] (cs.flatMap (Call.ops x4 h1 h2)) := by
  induction cs with
  | nil => trivial
  | cons c cs ih =>
    rw [List.flatMap_cons]
    refine Fine.append _ _ ?_ (Fine.mono _ (List.nil_subset _) (List.Subset.refl _) (ih fun c' hc => h c' (List.mem_cons_of_mem _ hc)))
    refine Fine.append _ _ (prologue_fine x4 h1 h2 c.fn) ?_
    have hc := h c List.mem_cons_self
    have key : ∀ us : List (G × Nat), (∀ u ∈ us, u.1 ∈ reads x4 c.fn ∧ u.2 < 4) →
        Fine (avxConst h1 h2) (known [] (prologue x4 h1 h2 c.fn)) [] (us.map fun u => Op.use u.1 u.2) := by
      intro us
      induction us with
      | nil => intro _; trivial
      | cons u us ihu =>
        intro hu
        have := hu u List.mem_cons_self
        exact ⟨prologue_known x4 h1 h2 c.fn u.1 this.1 u.2 this.2, ihu fun v hv => hu v (List.mem_cons_of_mem _ hv)⟩
    exact key _ hc

/-- Threads that are about to make the calls `calls`, with any contents of their registers. -/
def threads (x4 : Bool) (h1 h2 : BitVec 16) (regs : Nat → Nat → BitVec 64) (calls : List (List Call)) : List Thread :=
  calls.mapIdx fun i cs => ⟨regs i, cs.flatMap (Call.ops x4 h1 h2), []⟩

/-- **C89.** Start from any contents of the global variables (`mem`).  Let any number of threads make any calls; in each call the
function's own assignments come first, then any uses of the variables it uses.  Let the accesses be interleaved in any way, and stop at any
point.  Then every word that any thread has used is the word of the intended constant. -/
theorem C89_constants_any_schedule (x4 : Bool) (h1 h2 : BitVec 16) (mem : G → Nat → BitVec 64) (regs : Nat → Nat → BitVec 64)
    (calls : List (List Call)) (hcalls : ∀ cs ∈ calls, CallsOk x4 cs) (sched : List Nat) :
    ∀ t ∈ (State.exec sched ⟨mem, threads x4 h1 h2 regs calls⟩).thr, ∀ g l v, (g, l, v) ∈ t.used → v = avxConst h1 h2 g := by
  intro t ht
  refine (exec_ok sched ⟨mem, threads x4 h1 h2 regs calls⟩ ?_ t ht).1
  intro u hu
  obtain ⟨i, hi, rfl⟩ := List.mem_mapIdx.1 hu
  exact ⟨by simp, [], [], by simp, by simp, calls_fine x4 h1 h2 _ (hcalls _ (List.getElem_mem _))⟩

/-- What thread `t` has used so far and what it will still use are the uses of its calls: no use is lost or reordered. -/
def allUses (t : Thread) : List (G × Nat) :=
  t.used.map (fun u => (u.1, u.2.1)) ++ t.todo.filterMap fun o => match o with
    | .use g l => some (g, l)
    | _ => none

theorem step_allUses (mem : G → Nat → BitVec 64) (t : Thread) : allUses (t.step mem).2 = allUses t := by
  unfold Thread.step allUses
  rcases ho : t.todo with _ | ⟨o, r⟩
  · simp [ho]
  · cases o <;> simp

theorem exec_allUses (sched : List Nat) : ∀ s : State, (State.exec sched s).thr.map allUses = s.thr.map allUses := by
  induction sched with
  | nil => intro s; rfl
  | cons i sched ih =>
    intro s
    show (State.exec sched (s.step i)).thr.map allUses = _
    rw [ih]
    unfold State.step
    cases ht : s.thr[i]? with
    | none => rfl
    | some t =>
      show (s.thr.set i _).map allUses = _
      rw [List.map_set, step_allUses]
      apply List.ext_getElem?
      intro j
      rw [List.getElem?_set]
      split
      · rename_i c
        subst c
        rw [List.getElem?_map, ht]
        split
        · rfl
        · rename_i c; rw [List.length_map] at c
          rw [List.getElem?_eq_none (Nat.le_of_not_lt c)] at ht; cases ht
      · rfl

theorem prologue_noUses (x4 : Bool) (h1 h2 : BitVec 16) (f : Fn) : (prologue x4 h1 h2 f).filterMap (fun o => match o with
    | .use g l => some (g, l)
    | _ => none) = [] := by
  cases x4 <;> cases f <;> simp [prologue, load_values, init_aux_avx, setAll, loadMask, List.finRange]

/-- **C89.** A thread that has finished has used exactly the words its calls ask for, in their order, and each was the constant: the
accesses of the other threads and the history of the global variables cannot be observed. -/
theorem C89_finished (x4 : Bool) (h1 h2 : BitVec 16) (mem : G → Nat → BitVec 64) (regs : Nat → Nat → BitVec 64)
    (calls : List (List Call)) (hcalls : ∀ cs ∈ calls, CallsOk x4 cs) (sched : List Nat) (i : Nat) (t : Thread) (cs : List Call)
    (hcs : calls[i]? = some cs) (ht : (State.exec sched ⟨mem, threads x4 h1 h2 regs calls⟩).thr[i]? = some t) (hdone : t.todo = []) :
    t.used = (cs.flatMap Call.uses).map fun u => (u.1, u.2, avxConst h1 h2 u.1) := by
  have hv := C89_constants_any_schedule x4 h1 h2 mem regs calls hcalls sched t (List.mem_of_getElem? ht)
  have he := congrArg (fun z => z[i]?) (exec_allUses sched ⟨mem, threads x4 h1 h2 regs calls⟩)
  have hi : (threads x4 h1 h2 regs calls)[i]? = some ⟨regs i, cs.flatMap (Call.ops x4 h1 h2), []⟩ := by
    rw [threads, List.getElem?_mapIdx, hcs]; rfl
  simp only [List.getElem?_map, ht, hi, Option.map_some, Option.some.injEq] at he
  unfold allUses at he
  rw [hdone] at he
  simp only [List.filterMap_nil, List.append_nil, List.map_nil, List.nil_append] at he
  have h3 : ∀ cs : List Call, (cs.flatMap (Call.ops x4 h1 h2)).filterMap (fun o => match o with
      | .use g l => some (g, l)
      | _ => none) = cs.flatMap Call.uses := by
    intro cs
    induction cs with
    | nil => rfl
    | cons c cs ih =>
      rw [List.flatMap_cons, List.filterMap_append, ih, List.flatMap_cons]
      congr 1
      rw [Call.ops, List.filterMap_append, prologue_noUses, List.nil_append, List.filterMap_map]
      exact List.filterMap_some
  rw [h3] at he
  rw [← he, List.map_map]
  have : ∀ L : List (G × Nat × BitVec 64), (∀ g l v, (g, l, v) ∈ L → v = avxConst h1 h2 g) →
      L = L.map ((fun u : G × Nat => (u.1, u.2, avxConst h1 h2 u.1)) ∘ fun u => (u.1, u.2.1)) := by
    intro L
    induction L with
    | nil => intro _; rfl
    | cons a L ih =>
      intro h
      rw [List.map_cons, ← ih fun g l v hm => h g l v (List.mem_cons_of_mem _ hm)]
      obtain ⟨g, l, v⟩ := a
      rw [Function.comp, h g l v List.mem_cons_self]
  exact this _ hv

/-- Element `i` of a vector of sixteen 16-bit elements whose four words are all `w`. -/
def elem16 (w : BitVec 64) (i : Nat) : BitVec 16 := w.extractLsb' (16 * (i % 4)) 16

/-- **C89.** These constants are the ones of the sequential model of the AVX2 code: `H1_avx` in the rounding, `mask_load` in the stores
(32-bit elements) and the six constants in the interpolation. -/
theorem C89_model_constants (h2 : BitVec 16) (i : Fin 16) :
    elem16 (avxConst (BitVec.ofInt 16 Avx.h1) h2 .H1_avx) i = Avx.H1_avx i ∧
    (i.val < 8 → (avxConst (BitVec.ofInt 16 Avx.h1) h2 .mask_load).extractLsb' (32 * (i.val % 2)) 32 = Avx.mask_load i) ∧
    ∀ p ∈ [(G.int45_avx, Avx.TInterpol.int45_avx), (G.inv3_avx, Avx.TInterpol.inv3_avx), (G.inv9_avx, Avx.TInterpol.inv9_avx),
        (G.int30_avx, Avx.TInterpol.int30_avx), (G.inv15_avx, Avx.TInterpol.inv15_avx), (G.int0_avx, Avx.TInterpol.int0_avx)],
      ∃ n, p.2 = .set1 n ∧ elem16 (avxConst (BitVec.ofInt 16 Avx.h1) h2 p.1) i = BitVec.ofNat 16 n := by
  refine ⟨?_, ?_, ?_⟩
  · dsimp only [avxConst]; revert i; decide
  · dsimp only [avxConst]; revert i; decide
  · simp only [List.forall_mem_cons, List.not_mem_nil, false_imp_iff, implies_true, and_true]
    exact ⟨⟨45, rfl, by dsimp only [avxConst]; revert i; decide⟩, ⟨43691, rfl, by dsimp only [avxConst]; revert i; decide⟩, ⟨36409, rfl, by dsimp only [avxConst]; revert i; decide⟩,
      ⟨30, rfl, by dsimp only [avxConst]; revert i; decide⟩, ⟨61167, rfl, by dsimp only [avxConst]; revert i; decide⟩, ⟨0, rfl, by dsimp only [avxConst]; revert i; decide⟩⟩

/-- Two threads: one makes a key pair and decrypts, the other encrypts; the calls meet the hypotheses. -/
def demoCalls : List (List Call) :=
  [[⟨.keypair, [(.inv3_avx, 0), (.H1_avx, 3), (.mask_load, 1)]⟩, ⟨.dec, [(.mask_load, 2), (.int45_avx, 1)]⟩],
   [⟨.enc, [(.avx_epi32 2, 0), (.H1_avx, 1)]⟩]]

example : ∀ cs ∈ demoCalls, CallsOk true cs := by
  unfold demoCalls CallsOk
  decide

/-- With memory that holds zeros, and the two threads taking turns, both finish, and the words used are not zero. -/
example : ((State.exec ((List.range 600).map (· % 2)) ⟨fun _ _ => 0, threads true 4 196 (fun _ _ => 0) demoCalls⟩).thr.map
    fun t => (t.todo.length, t.used.map (·.2.2))) =
    [(0, [0xAAABAAABAAABAAAB, 0x0004000400040004, 0xFFFFFFFFFFFFFFFF, 0xFFFFFFFFFFFFFFFF, 0x002D002D002D002D]),
     (0, [0x0000000700000007, 0x0004000400040004])] := by
  decide +kernel

/-- The assignments are needed: without them a thread that starts first uses the zeros that the variables hold at the start of the program. -/
example : (State.exec [0] ⟨fun _ _ => 0, [⟨fun _ => 0, [.use .inv3_avx 0], []⟩]⟩).thr.map (·.used) = [[(.inv3_avx, 0, 0)]] := rfl

end Saber.Props
