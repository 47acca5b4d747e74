import Verif.Model.Avx.Indcpa
/-!
# Threads that share the global vectors of the AVX2 implementations

The AVX2 code keeps constants in global variables (`AVX_Implementation_KEM/SABER_indcpa.c`, lines 27-33; the same in
`Variants/uSaber-90s/avx2` and, with sixteen more, in `Variants/SaberX4_avx2`).  Every call of one of the three functions of the encryption
scheme assigns all of them again before it uses them.  This file models these assignments and uses as sequences of accesses to 64-bit
words: a 256-bit store or load need not be a single access.

Simplifications.  The accesses of different threads are interleaved one at a time (sequential consistency; the C standard calls the
unsynchronised accesses a data race and gives them no meaning at all).  Between the assignments and the end of a call, a function uses the
variables in an order that is left open.  The counters that only measure (`clock_mul`, `count_enc`, ...) are left out.
-/
namespace Saber.Conc.Avx

/-- The global variables. -/
inductive G where
  /-- `uint64_t mask_ar[4]` (SABER_indcpa.c:27) -/
  | mask_ar
  /-- SABER_indcpa.c:28 -/
  | mask_load
  /-- SABER_indcpa.c:29 -/
  | floor_round
  /-- SABER_indcpa.c:30 -/
  | H1_avx
  /-- SABER_indcpa.c:31 -/
  | H2_avx
  /-- SABER_indcpa.c:33 -/
  | mask
  /-- SABER_indcpa.c:33 -/
  | inv3_avx
  /-- SABER_indcpa.c:33 -/
  | inv9_avx
  /-- SABER_indcpa.c:33 -/
  | inv15_avx
  /-- SABER_indcpa.c:33 -/
  | int45_avx
  /-- SABER_indcpa.c:33 -/
  | int30_avx
  /-- SABER_indcpa.c:33 -/
  | int0_avx
  /-- `avx_epi64_01`, `avx_epi64_03`, ..., `avx_epi64_ff` (`Variants/SaberX4_avx2/SABER_indcpa.h:62`); `k` is the number of ones -/
  | avx_epi64 (k : Fin 8)
  /-- `avx_epi32_01`, `avx_epi32_03`, ..., `avx_epi32_ff` (`Variants/SaberX4_avx2/SABER_indcpa.h:63`) -/
  | avx_epi32 (k : Fin 8)
  deriving DecidableEq, Repr

/-- One access.  `l` is the number of the 64-bit word. -/
inductive Op where
  /-- store the constant `v` -/
  | set (g : G) (l : Nat) (v : BitVec 64)
  /-- load a word of `mask_ar` to a register -/
  | ldm (l : Nat)
  /-- store the register -/
  | str (g : G) (l : Nat)
  /-- load a word for a computation -/
  | use (g : G) (l : Nat)
  deriving Repr

/-- A 256-bit store of four equal words. -/
def setAll (g : G) (v : BitVec 64) : List Op := [.set g 0 v, .set g 1 v, .set g 2 v, .set g 3 v]

/-- `g = _mm256_loadu_si256((__m256i const *)mask_ar)` -/
def loadMask (g : G) : List Op := [.ldm 0, .ldm 1, .ldm 2, .ldm 3, .str g 0, .str g 1, .str g 2, .str g 3]

/-- Four equal 16-bit elements: a word of `_mm256_set1_epi16(x)`. -/
def word16 (x : BitVec 16) : BitVec 64 := (x ++ x) ++ (x ++ x)

/-- Two equal 32-bit elements: a word of `_mm256_set1_epi32(x)`. -/
def word32 (x : BitVec 32) : BitVec 64 := x ++ x

/-- `0x01, 0x03, 0x07, ..., 0xff` -/
def ones (k : Fin 8) : Nat := 2 ^ (k.val + 1) - 1

/-- `init_aux_avx` (`Variants/SaberX4_avx2/SABER_indcpa.c:34-52`) -/
def init_aux_avx : List Op :=
  (List.finRange 8).flatMap (fun k => setAll (.avx_epi64 k) (BitVec.ofNat 64 (ones k))) ++
  (List.finRange 8).flatMap (fun k => setAll (.avx_epi32 k) (word32 (BitVec.ofNat 32 (ones k))))

/-- `load_values` (SABER_indcpa.c:40-71); in SaberX4 it begins with `init_aux_avx` (`Variants/SaberX4_avx2/SABER_indcpa.c:62-93`). -/
def load_values (x4 : Bool) : List Op :=
  (if x4 then init_aux_avx else []) ++ setAll .inv3_avx (word16 43691) ++ setAll .inv9_avx (word16 36409) ++
  setAll .inv15_avx (word16 61167) ++ setAll .int45_avx (word16 45) ++ setAll .int30_avx (word16 30) ++ setAll .int0_avx (word16 0) ++
  loadMask .mask

/-- The functions of the encryption scheme. -/
inductive Fn where
  /-- `indcpa_kem_keypair` -/
  | keypair
  /-- `indcpa_kem_enc` -/
  | enc
  /-- `indcpa_kem_dec` -/
  | dec
  deriving DecidableEq, Repr

/-- The assignments at the start of a function: SABER_indcpa.c:176-188 (`keypair`), 291-306 (`enc`) and 471-481 (`dec`);
`Variants/SaberX4_avx2/SABER_indcpa.c:472-488`, `630-646` and `855-868`.  `h1`, `h2` are the constants of the parameter set. -/
def prologue (x4 : Bool) (h1 h2 : BitVec 16) : Fn → List Op
  | .keypair => setAll .mask_ar (~~~0) ++ loadMask .mask_load ++ setAll .floor_round (word16 4) ++ setAll .H1_avx (word16 h1) ++ load_values x4
  | .enc => setAll .mask_ar (~~~0) ++ loadMask .mask_load ++ setAll .floor_round (word16 4) ++ setAll .H1_avx (word16 h1) ++ load_values x4
  | .dec => setAll .mask_ar (~~~0) ++ loadMask .mask_load ++ setAll .H2_avx (word16 h2) ++ load_values x4

/-- The variables a function uses after that: in polymul/toom-cook_4way.c:968-983 (all functions), SABER_indcpa.c:234 and 248 (`keypair`),
353, 364, 399 and 428 (`enc`), 515 (`dec`); in SaberX4 also the masks of its pack_unpack.c. -/
def reads (x4 : Bool) (f : Fn) : List G :=
  [.int45_avx, .inv3_avx, .inv9_avx, .int0_avx, .int30_avx, .inv15_avx, .mask_load] ++
  (match f with
    | .dec => []
    | _ => [.H1_avx]) ++
  (if x4 then (List.finRange 8).map .avx_epi64 ++ (List.finRange 8).map .avx_epi32 else [])

/-- A call: the function, and the words it uses, in order. -/
structure Call where
  fn : Fn
  uses : List (G × Nat)

/-- The accesses of a call. -/
def Call.ops (x4 : Bool) (h1 h2 : BitVec 16) (c : Call) : List Op := prologue x4 h1 h2 c.fn ++ c.uses.map fun u => .use u.1 u.2

/-- A thread: a vector register, the accesses still to be made, and a record of the words it has used. -/
structure Thread where
  reg : Nat → BitVec 64
  todo : List Op
  used : List (G × Nat × BitVec 64)

/-- The global variables and the threads. -/
structure State where
  mem : G → Nat → BitVec 64
  thr : List Thread

/-- `f` with the value `v` at `(g, l)` -/
def upd (f : G → Nat → BitVec 64) (g : G) (l : Nat) (v : BitVec 64) : G → Nat → BitVec 64 :=
  fun g' l' => if g' = g ∧ l' = l then v else f g' l'

/-- One access of a thread. -/
def Thread.step (mem : G → Nat → BitVec 64) (t : Thread) : (G → Nat → BitVec 64) × Thread :=
  match t.todo with
  | [] => (mem, t)
  | .set g l v :: r => (upd mem g l v, { t with todo := r })
  | .ldm l :: r => (mem, { t with reg := fun l' => if l' = l then mem .mask_ar l else t.reg l', todo := r })
  | .str g l :: r => (upd mem g l (t.reg l), { t with todo := r })
  | .use g l :: r => (mem, { t with todo := r, used := t.used ++ [(g, l, mem g l)] })

/-- Thread `i` makes its next access. -/
def State.step (i : Nat) (s : State) : State :=
  match s.thr[i]? with
  | none => s
  | some t => ⟨(t.step s.mem).1, s.thr.set i (t.step s.mem).2⟩

/-- The threads take turns as the schedule says. -/
def State.exec : List Nat → State → State
  | [], s => s
  | i :: is, s => State.exec is (s.step i)

end Saber.Conc.Avx
