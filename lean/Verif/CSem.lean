/-!
# A small semantics for the C code

`CM α` is the result of running a piece of C code: either `.ok a` or an undefined-behaviour outcome.
A theorem of the form `f x = .ok y` says both that `f` has none of the modelled kinds of undefined behaviour
on `x` and what it computes.

* C arrays are `List`s of the size of the C object; `rd`/`wr` are checked accesses.
* A pointer into an array is the pair (array, offset).
* `int` is a 32-bit signed integer (trusted), computed in `Int` with explicit range checks.
-/
namespace Saber

/-- The kinds of undefined behaviour that the model tracks. -/
inductive UB where
  /-- array access outside of the object -/
  | oob
  /-- result of a signed operation outside of `int` -/
  | signedOverflow
  /-- left shift of a negative value or shift count out of range -/
  | badShift
  deriving DecidableEq, Repr

/-- Outcome of a C computation. -/
abbrev CM (α : Type) := Except UB α

abbrev Byte := BitVec 8

/-- `a[i]` as an rvalue. -/
def rd {α : Type} (a : List α) (i : Nat) : CM α :=
  match a[i]? with
  | some v => .ok v
  | none => .error .oob

/-- `a[i] = v`. -/
def wr {α : Type} (a : List α) (i : Nat) (v : α) : CM (List α) :=
  if i < a.length then .ok (a.set i v) else .error .oob

/-- `a[i] = v0; a[i+1] = v1; ...` (consecutive assignments, in order). -/
def wrs {α : Type} (a : List α) (i : Nat) : List α → CM (List α)
  | [] => .ok a
  | v :: vs => do
    let a' ← wr a i v
    wrs a' (i + 1) vs

/-- `for (i = 0; i < n; i++) body` with the mutable variables of the body collected in `s`. -/
def loop {σ : Type} : Nat → σ → (Nat → σ → CM σ) → CM σ
  | 0, s, _ => .ok s
  | n + 1, s, body => do
    let s' ← loop n s body
    body n s'

/-- `memcpy(dst + doff, src + soff, n)` for non-overlapping objects. -/
def memcpy {α : Type} (dst : List α) (doff : Nat) (src : List α) (soff n : Nat) : CM (List α) :=
  loop n dst fun i dst => do
    let v ← rd src (soff + i)
    wr dst (doff + i) v

/-- `memset(dst + doff, v, n)` (`n` counts elements). -/
def memset {α : Type} (dst : List α) (doff : Nat) (v : α) (n : Nat) : CM (List α) :=
  loop n dst fun i dst => wr dst (doff + i) v

/-- `a[i] += v` for an unsigned element type (wraps around). -/
def addTo {w : Nat} (a : List (BitVec w)) (i : Nat) (v : BitVec w) : CM (List (BitVec w)) := do
  let x ← rd a i
  wr a i (x + v)

/-- The unspecified content of an uninitialised local array (`tag` distinguishes the variables).  The constant is
opaque: nothing can be proved about its values. -/
opaque junk (w tag i : Nat) : BitVec w

/-- An uninitialised local array of `n` elements. -/
def uninit (w tag n : Nat) : List (BitVec w) := (List.range n).map (junk w tag)

/-! ### `int` arithmetic -/

/-- Range check of a signed 32-bit result. -/
def ckInt (x : Int) : CM Int :=
  if -2147483648 ≤ x ∧ x ≤ 2147483647 then .ok x else .error .signedOverflow

/-- signed `a + b` -/
def iadd (a b : Int) : CM Int := ckInt (a + b)
/-- signed `a - b` -/
def isub (a b : Int) : CM Int := ckInt (a - b)
/-- signed `a * b` -/
def imul (a b : Int) : CM Int := ckInt (a * b)
/-- signed `a << k`: undefined for negative `a`, for an unrepresentable result and for `k ≥ 32`. -/
def ishl (a : Int) (k : Nat) : CM Int :=
  if 0 ≤ a ∧ a * 2 ^ k ≤ 2147483647 ∧ k < 32 then .ok (a * 2 ^ k) else .error .badShift
/-- signed `a >> k`: arithmetic shift (implementation-defined for negative `a`; trusted). -/
def isar (a : Int) (k : Nat) : Int := a / 2 ^ k

/-- Integer promotion of an unsigned narrow type to `int`. -/
def prom {w : Nat} (x : BitVec w) : Int := (x.toNat : Int)
/-- Conversion of an `int` to `uint16_t`. -/
def u16 (x : Int) : BitVec 16 := BitVec.ofInt 16 x
/-- Conversion of an `int` to `uint32_t`. -/
def u32 (x : Int) : BitVec 32 := BitVec.ofInt 32 x
/-- Store of a non-negative `int` value to a `uint8_t`. -/
def n8 (x : Nat) : BitVec 8 := BitVec.ofNat 8 x
/-- Store of a non-negative `int` value to a `uint16_t`. -/
def n16 (x : Nat) : BitVec 16 := BitVec.ofNat 16 x

/-! ### Reasoning -/

/-- `Ok m P`: the computation `m` has no undefined behaviour and its result satisfies `P`. -/
def Ok {α : Type} (m : CM α) (P : α → Prop) : Prop := ∃ a, m = .ok a ∧ P a

theorem Ok.pure {α : Type} {a : α} {P : α → Prop} (h : P a) : Ok (.ok a) P := ⟨a, rfl, h⟩

theorem Ok.mono {α : Type} {m : CM α} {P Q : α → Prop} (h : Ok m P) (hPQ : ∀ a, P a → Q a) : Ok m Q := by
  obtain ⟨a, h1, h2⟩ := h; exact ⟨a, h1, hPQ a h2⟩

theorem Ok.bind {α β : Type} {m : CM α} {f : α → CM β} {P : α → Prop} {Q : β → Prop}
    (h : Ok m P) (hf : ∀ a, P a → Ok (f a) Q) : Ok (m >>= f) Q := by
  obtain ⟨a, rfl, h2⟩ := h
  exact hf a h2

@[simp] theorem ok_bind {α β : Type} (a : α) (f : α → CM β) :
    ((Except.ok a : CM α) >>= f) = f a := rfl

@[simp] theorem error_bind {α β : Type} (e : UB) (f : α → CM β) :
    ((Except.error e : CM α) >>= f) = .error e := rfl

@[simp] theorem pure_eq_ok {α : Type} (a : α) : (pure a : CM α) = .ok a := rfl

theorem rd_ok {α : Type} {a : List α} {i : Nat} (d : α) (h : i < a.length) : rd a i = .ok (a.getD i d) := by
  simp [rd, h]

theorem rd_oob {α : Type} {a : List α} {i : Nat} (h : a.length ≤ i) : rd a i = .error .oob := by
  simp [rd, h]

theorem wr_ok {α : Type} {a : List α} {i : Nat} {v : α} (h : i < a.length) : wr a i v = .ok (a.set i v) := by
  simp [wr, h]

theorem wr_oob {α : Type} {a : List α} {i : Nat} {v : α} (h : a.length ≤ i) : wr a i v = .error .oob := by
  simp [wr]; omega

theorem getD_set {α : Type} (a : List α) (i j : Nat) (v d : α) :
    (a.set i v).getD j d = if i = j ∧ i < a.length then v else a.getD j d := by
  simp only [List.getD_eq_getElem?_getD, List.getElem?_set]
  by_cases h : i = j
  · subst h
    by_cases h2 : i < a.length <;> simp [h2]
  · simp [h]

@[simp] theorem length_uninit (w tag n : Nat) : (uninit w tag n).length = n := by simp [uninit]

theorem addTo_ok {w : Nat} {a : List (BitVec w)} {i : Nat} {v : BitVec w} (h : i < a.length) :
    addTo a i v = .ok (a.set i (a.getD i 0 + v)) := by
  simp [addTo, rd_ok 0 h, wr_ok h]

@[simp] theorem loop_zero {σ : Type} (s : σ) (body : Nat → σ → CM σ) : loop 0 s body = .ok s := rfl

theorem loop_succ {σ : Type} (n : Nat) (s : σ) (body : Nat → σ → CM σ) :
    loop (n + 1) s body = (loop n s body >>= body n) := rfl

/-- Total-correctness rule for `for` loops. -/
theorem loop_inv {σ : Type} {n : Nat} {s : σ} {body : Nat → σ → CM σ} (I : Nat → σ → Prop)
    (h0 : I 0 s) (hs : ∀ i s, i < n → I i s → Ok (body i s) (I (i + 1))) : Ok (loop n s body) (I n) := by
  induction n with
  | zero => exact Ok.pure h0
  | succ n ih =>
    rw [loop_succ]
    exact (ih fun i s hi => hs i s (by omega)).bind fun a ha => hs n a (by omega) ha

/-- A loop whose body is always defined is a plain fold. -/
theorem loop_eq_foldl {σ : Type} {n : Nat} {s : σ} {body : Nat → σ → CM σ} (f : Nat → σ → σ)
    (I : σ → Prop) (h0 : I s) (hs : ∀ i s, i < n → I s → body i s = .ok (f i s) ∧ I (f i s)) :
    loop n s body = .ok ((List.range n).foldl (fun s i => f i s) s) ∧
      I ((List.range n).foldl (fun s i => f i s) s) := by
  induction n with
  | zero => exact ⟨rfl, h0⟩
  | succ n ih =>
    obtain ⟨h1, h2⟩ := ih fun i s hi => hs i s (by omega)
    obtain ⟨h3, h4⟩ := hs n _ (by omega) h2
    rw [loop_succ, h1, ok_bind, h3, List.range_succ, List.foldl_append]
    exact ⟨rfl, h4⟩

theorem loop_congr {σ : Type} {n : Nat} {s : σ} {body body' : Nat → σ → CM σ}
    (h : ∀ i s, i < n → body i s = body' i s) : loop n s body = loop n s body' := by
  induction n with
  | zero => rfl
  | succ n ih =>
    rw [loop_succ, loop_succ, ih fun i s hi => h i s (by omega)]
    congr 1
    funext a
    exact h n a (by omega)

/-- Overwrite of `vs.length` elements of `a` from index `off`. -/
def writeAt {α : Type} (a : List α) (off : Nat) (vs : List α) : List α :=
  a.take off ++ vs ++ a.drop (off + vs.length)

@[simp] theorem writeAt_nil {α : Type} (a : List α) (off : Nat) : writeAt a off [] = a := by
  simp [writeAt]

theorem length_writeAt {α : Type} (a : List α) (off : Nat) (vs : List α) (h : off + vs.length ≤ a.length) :
    (writeAt a off vs).length = a.length := by
  simp [writeAt]; omega

theorem writeAt_append {α : Type} (a : List α) (off : Nat) (us vs : List α)
    (h : off + us.length + vs.length ≤ a.length) :
    writeAt (writeAt a off us) (off + us.length) vs = writeAt a off (us ++ vs) := by
  simp only [writeAt]
  have h1 : (a.take off).length = off := by simp; omega
  have e1 : List.take (off + us.length) (a.take off ++ us ++ a.drop (off + us.length)) = a.take off ++ us := by
    rw [List.take_append_of_le_length (by simp; omega), List.take_of_length_le (by simp; omega)]
  have e2 : List.drop (off + us.length + vs.length) (a.take off ++ us ++ a.drop (off + us.length))
      = a.drop (off + (us ++ vs).length) := by
    rw [List.drop_append]
    have : (a.take off ++ us).length = off + us.length := by simp; omega
    rw [this, List.drop_of_length_le (by rw [this]; omega), List.drop_drop]
    simp [Nat.add_assoc]
  rw [e1, e2]; simp

theorem set_eq_writeAt {α : Type} (a : List α) (i : Nat) (v : α) (h : i < a.length) :
    a.set i v = writeAt a i [v] := by
  rw [List.set_eq_take_append_cons_drop]; simp [writeAt, h]

theorem wrs_ok {α : Type} (vs : List α) : ∀ (a : List α) (i : Nat), i + vs.length ≤ a.length →
    wrs a i vs = .ok (writeAt a i vs) := by
  induction vs with
  | nil => intro a i _; simp [wrs]
  | cons v vs ih =>
    intro a i h
    simp only [List.length_cons] at h
    rw [wrs, wr_ok (by omega), ok_bind, ih _ _ (by simp; omega), set_eq_writeAt _ _ _ (by omega)]
    have := writeAt_append a i [v] vs (by simp; omega)
    simp at this
    rw [this]

/-- A loop that writes consecutive blocks of `w` elements writes their concatenation. -/
theorem loop_blocks {α : Type} (w : Nat) (vs : Nat → List α) (hw : ∀ j, (vs j).length = w)
    (n : Nat) (a : List α) (off : Nat) (ha : off + w * n ≤ a.length)
    (body : Nat → List α → CM (List α))
    (hb : ∀ j a', j < n → a'.length = a.length → body j a' = wrs a' (off + w * j) (vs j)) :
    loop n a body = .ok (writeAt a off ((List.range n).flatMap vs)) := by
  induction n with
  | zero => simp
  | succ n ih =>
    have hl : ((List.range n).flatMap vs).length = w * n := by
      rw [List.length_flatMap]; simp only [hw]
      rw [List.map_const', List.sum_replicate_nat, List.length_range, Nat.mul_comm]
    have e : w * (n + 1) = w * n + w := by rw [Nat.mul_succ]
    rw [loop_succ, ih (by omega) (fun j a' hj => hb j a' (by omega)), ok_bind,
      hb n _ (by omega) (length_writeAt _ _ _ (by omega)),
      wrs_ok _ _ _ (by rw [hw, length_writeAt _ _ _ (by omega)]; omega)]
    have := writeAt_append a off ((List.range n).flatMap vs) (vs n) (by rw [hl, hw]; omega)
    rw [hl] at this
    rw [this, List.range_succ, List.flatMap_append]; simp

theorem flatMap_singleton_eq_map {α : Type} (n : Nat) (f : Nat → α) :
    (List.range n).flatMap (fun i => [f i]) = (List.range n).map f := by
  induction n with
  | zero => rfl
  | succ n ih => rw [List.range_succ, List.flatMap_append, ih]; simp

theorem map_getD_range {α : Type} (a : List α) (soff n : Nat) (d : α) (h : soff + n ≤ a.length) :
    (List.range n).map (fun i => a.getD (soff + i) d) = (a.drop soff).take n := by
  apply List.ext_getElem
  · simp; omega
  · intro i h1 h2
    simp at h1 h2 ⊢
    rw [List.getElem?_eq_getElem (by omega)]; rfl

theorem memcpy_ok {α : Type} [Inhabited α] (dst : List α) (doff : Nat) (src : List α) (soff n : Nat)
    (hs : soff + n ≤ src.length) (hd : doff + n ≤ dst.length) :
    memcpy dst doff src soff n = .ok (writeAt dst doff ((src.drop soff).take n)) := by
  unfold memcpy
  rw [loop_blocks 1 (fun i => [src.getD (soff + i) default]) (fun _ => rfl) n dst doff (by omega),
    flatMap_singleton_eq_map, map_getD_range _ _ _ _ hs]
  intro j a' hj ha
  rw [rd_ok default (by omega), ok_bind]
  simp only [wrs, Nat.one_mul]
  cases h : wr a' (doff + j) (src.getD (soff + j) default) <;> rfl

theorem memset_ok {α : Type} (dst : List α) (doff : Nat) (v : α) (n : Nat) (hd : doff + n ≤ dst.length) :
    memset dst doff v n = .ok (writeAt dst doff (List.replicate n v)) := by
  unfold memset
  rw [loop_blocks 1 (fun _ => [v]) (fun _ => rfl) n dst doff (by omega), flatMap_singleton_eq_map]
  · congr 2
    apply List.ext_getElem <;> simp
  · intro j a' hj ha
    simp only [wrs, Nat.one_mul]
    cases h : wr a' (doff + j) v <;> rfl

theorem range_map_succ {α : Type} (n : Nat) (g : Nat → α) :
    (List.range (n + 1)).map g = (List.range n).map g ++ [g n] := by
  rw [List.range_succ, List.map_append]; rfl

/-- A loop that replaces the elements of an array one by one. -/
theorem loop_rows {α : Type} (n : Nat) (data : List α) (hn : data.length = n) (d : α) (g : Nat → α)
    (body : Nat → List α → CM (List α))
    (h : ∀ i a', i < n → a'.length = n → a'.getD i d = data.getD i d → body i a' = .ok (a'.set i (g i))) :
    loop n data body = .ok ((List.range n).map g) := by
  have key : ∀ k, k ≤ n → loop k data body = .ok ((List.range k).map g ++ data.drop k) := by
    intro k
    induction k with
    | zero => intro _; simp
    | succ k ih =>
      intro hk
      rw [loop_succ, ih (by omega), ok_bind, h k _ (by omega) (by simp; omega) ?_]
      · rw [range_map_succ, List.set_append_right _ _ (by simp)]
        congr 1
        rw [List.append_assoc]
        have e := List.drop_eq_getElem_cons (show k < data.length by omega)
        rw [List.length_map, List.length_range, Nat.sub_self, e]
        rfl
      · simp only [List.getD_eq_getElem?_getD]
        rw [List.getElem?_append_right (by simp)]
        simp
  have := key n (Nat.le_refl n)
  rw [this, List.drop_of_length_le (by omega), List.append_nil]

theorem writeAt_full {α : Type} (a vs : List α) (h : a.length = vs.length) : writeAt a 0 vs = vs := by
  simp [writeAt, ← h]

theorem writeAt_take {α : Type} (a vs : List α) (off : Nat) (h : off ≤ a.length) : (writeAt a off vs).take off = a.take off := by
  unfold writeAt
  rw [List.append_assoc, List.take_append_of_le_length (by simp; omega), List.take_of_length_le (by simp; omega)]

theorem writeAt_read {α : Type} (a vs : List α) (off : Nat) (h : off ≤ a.length) : ((writeAt a off vs).drop off).take vs.length = vs := by
  have hl : (a.take off).length = off := by simp; omega
  unfold writeAt
  rw [List.append_assoc, List.drop_append_of_le_length (by omega), List.drop_of_length_le (by omega), List.nil_append,
    List.take_append_of_le_length (Nat.le_refl _), List.take_of_length_le (Nat.le_refl _)]

theorem writeAt_drop {α : Type} (a vs : List α) (off : Nat) (h : off ≤ a.length) :
    (writeAt a off vs).drop (off + vs.length) = a.drop (off + vs.length) := by
  have hl : (a.take off ++ vs).length = off + vs.length := by simp; omega
  unfold writeAt
  rw [List.drop_append_of_le_length (by omega), List.drop_of_length_le (by omega), List.nil_append]

end Saber
