import Verif.Proof.Arm.KaraL
import Verif.Model.Arm.Tc
/-!
# The symbolic run of `toom_cook_4way_striding_asm`

Variables: `res_i` has the number `512 + i`.  `a_{4j}`, `a_{4j+2}`, `a_{4j+1}` and `a_{4j+3}` have the numbers `j`, `64 + j`, `128 + j` and `192 + j`,
and those of `b` are larger by 256: the code puts the coefficients `4j+1` where those with `4j+2` belong.  With `A_0` to `A_3` and `B_0` to `B_3` for these
four parts, coefficient `i` of `∑_j A_j B_{k-j}` modulo `Y^64+1` has the number `1024 + 128 * k + i`.  The halves of the return address of the last call
have the numbers 2000 and 2001, and the upper half of `ip` after this call has the number 2003.
-/
namespace Saber.Arm

/-- Exchange 1 and 2. -/
def swp : Nat → Nat
  | 1 => 2
  | 2 => 1
  | t => t

/-- The number of the variable for coefficient `i`. -/
def tcIx (i : Nat) : Nat := 64 * swp (i % 4) + i / 4

/-- A place for an array of 64 coefficients: in `b`, or on the stack above the part that the called function uses. -/
def placeP (o p : Nat) : Bool := Nat.beq (p.mod 2) 0 && (Nat.beq o 1 || (Nat.beq o 3 && Nat.ble 60 p))

def disjP (o p o' p' : Nat) : Bool := !Nat.beq o o' || (Nat.ble (p.add 128) p' || Nat.ble (p'.add 128) p)

/-- 64 halfwords that hold numbers. -/
def chkH (m : KM LH) (o i0 : Nat) : Bool :=
  (List.range 64).all fun i => match KM.rd m o (i0.add i) with
    | some (.half _) => true
    | _ => false

def defd {W : Type} : Val W → Bool
  | .undef => false
  | _ => true

def strdPre (o0 p0 o1 p1 o2 p2 o3 p3 t : Nat) : Bool :=
  Nat.ble t 6 && (placeP o0 p0 && (placeP o1 p1 && (placeP o2 p2 && (placeP o3 p3 && (disjP o0 p0 o1 p1 && (disjP o0 p0 o2 p2 &&
  (disjP o0 p0 o3 p3 && (disjP o1 p1 o2 p2 && (disjP o1 p1 o3 p3 && disjP o2 p2 o3 p3)))))))))

def strdRegs (s : State ldom) : Bool :=
  defd s.r4 && (defd s.r5 && (defd s.r6 && (defd s.r7 && (defd s.r8 && (defd s.r9 && (defd s.sl && defd s.fp))))))

/-- The memory after the call. -/
def strdMem (o0 p0 o1 p1 o2 p2 o3 p3 t : Nat) (m : KM LH) : Option (KM LH) :=
  match wrs (fun _ => .half .unk) o0 64 0 (p0.div 2) m with
  | some m => match wrs (fun _ => .half .unk) o1 64 0 (p1.div 2) m with
    | some m => match wrs (dstCell t) o2 64 0 (p2.div 2) m with
      | some m => match wrs (fun _ => .half .unk) o3 64 0 (p3.div 2) m with
        | some m => wrs (fun _ => .undef) 3 30 0 0 m
        | none => none
      | none => none
    | none => none
  | none => none

/-- The effect of `kara_strd_mem_asm` in `toom_cook_4way_striding_asm`; `f` gives `ip` and `lr`. -/
def strdL (f : Nat → Nat → Val LW × Val LW) (s : State ldom) : Option (State ldom) :=
  match s.r0, s.r1, s.r2, s.r3, s.sp, s.lr with
  | .a (.ptr o0 (.ofNat p0)), .a (.ptr o1 (.ofNat p1)), .a (.ptr o2 (.ofNat p2)), .a (.ptr o3 (.ofNat p3)), .a (.ptr 3 (.ofNat 60)), .a (.code n) =>
    forceN ((p0.sub 72).div 128) fun t => match strdPre o0 p0 o1 p1 o2 p2 o3 p3 t && (strdRegs s &&
        (chkOp s.mem o0 (p0.div 2) 0 t && (chkOp s.mem o1 (p1.div 2) 256 t && (chkH s.mem o2 (p2.div 2) && chkH s.mem o3 (p3.div 2))))) with
      | true => match strdMem o0 p0 o1 p1 o2 p2 o3 p3 t s.mem, f t n with
        | some m, (ip, lr) => some ⟨.a (.ptr o0 (.ofNat p0)), .a (.ptr o1 (.ofNat p1)), .undef, .a (.ptr o3 (.ofNat p3)), s.r4, s.r5, s.r6, s.r7, s.r8,
            s.r9, s.sl, s.fp, ip, .a (.ptr 3 (.ofNat 60)), lr, .a (.code n), m, ⟨none, none⟩⟩
        | none, _ => none
      | false => none
  | _, _, _, _, _, _ => none

/-- The first six calls. -/
def strdL0 : State ldom → Option (State ldom) := strdL fun _ n => (.undef, .a (.code n))

/-- The last call. -/
def strdL1 : State ldom → Option (State ldom) := strdL fun t _ =>
  (.w (.hh (LF.force (formOf 128 1024 (evP t)) fun l => .lin 16 l) (.lin 16 [(2003, 1)])), .w (.hh (.lin 16 [(2000, 1)]) (.lin 16 [(2001, 1)])))

/-- The statements before and after the last call. -/
def tcPre : List Stmt := toom_cook_4way_striding_asm.take 31
@[inherit_doc tcPre] def tcPost : List Stmt := toom_cook_4way_striding_asm.drop 32

def tcL (s : State ldom) : Option (State ldom) :=
  match run (fun | 0 => strdL0 | _ => fun _ => none) 0 tcPre s with
  | some s => match callFn strdL1 6 s with
    | some s => run (fun _ _ => none) 7 tcPost s
    | none => none
  | none => none

def tcObj : List (Nat × (Nat → Cell LH)) :=
  [(256, fun i => .half (.lin 16 [(tcIx i, 1)])), (256, fun i => .half (.lin 16 [(256 + tcIx i, 1)])), (256, fun i => .half (.lin 16 [(512 + i, 1)])),
    (886, fun _ => .undef)]

def tcK : State ldom :=
  ⟨lP 0 0, lP 1 0, lP 2 0, lO 3, lO 4, lO 5, lO 6, lO 7, lO 8, lO 9, lO 10, lO 11, lO 12, lP 3 1772, .a (.code 99), lO 15, kmemOf tcObj,
    ⟨none, none⟩⟩

/-- Coefficient `4 * j + t` of the result. -/
def tcForm (i : Nat) : LF :=
  let j := i / 4
  let t := i % 4
  LF.add [(512 + i, 1)] (LF.add [(1024 + 128 * t + j, 1)] (LF.add
    (if t < 3 then (if j = 0 then [(1024 + 128 * (t + 4) + 63, 65535)] else [(1024 + 128 * (t + 4) + (j - 1), 1)]) else [])
    (if i = 0 then [(2000, 1)] else if i = 1 then [(2001, 1)] else if i = 2 then [(1024, 1)] else if t = 3 ∧ i ≠ 3 then [(2003, 1)] else [])))

def chkTc (i : Nat) : LH → Bool
  | .lin k l => Nat.ble 13 k && LF.eq ((l.scale 8).add []) (LF.scale 8 (tcForm i))
  | _ => false

def chkA (i : Nat) : LH → Bool
  | .lin k l => Nat.beq k 16 && LF.eq l [(tcIx i, 1)]
  | _ => false

def tcFinal (s : State ldom) : Bool :=
  KM.allH s.mem 0 chkA 256 && (KM.allH s.mem 1 (fun _ _ => true) 256 && (KM.allH s.mem 2 chkTc 256 &&
  (isP s.sp 3 1772 && (isC s.pc 99 && saved s))))

def tcCheck : Bool := match tcL tcK with
  | none => false
  | some s => tcFinal s

theorem tcCheck_ok : tcCheck = true := by decide +kernel

end Saber.Arm
