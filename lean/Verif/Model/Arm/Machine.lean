/-!
# The part of the ARMv7E-M instruction set used by the Cortex-M4 and Cortex-M0 assembly

This file models no function of the repository.  It gives the meaning of the instructions of
`Cortex-M4/src/*/m4-striding/kara.s`, `m4-tc4kara/asm_funcs.S`, `m4-tc4kara/mult_toom4_256_16.s` and `Cortex-M0/saber-ref-mem/src/asm_KeccakF-1600.S`,
after the ARMv7-M and ARMv6-M Architecture Reference Manuals.

Memory consists of objects (the arrays passed by the caller, and the stack).  A register holds a 32-bit word, a pointer (an object and
an offset in bytes), a return address, or a value about which nothing is known.  Accesses outside of an object or at an odd address, and
arithmetic on anything but words (except for adding a constant to a pointer), have no result (`none`).  The same holds for reading memory
that has not been written, and for computing with a register that a called function may have changed.

The interpreter is written over a `Dom`, which says what a word is and how the instructions work on words.  `conc` is the machine.  The proofs
run the same interpreter on symbolic words.
-/
namespace Saber.Arm

/-- The core registers. -/
inductive Reg | r0 | r1 | r2 | r3 | r4 | r5 | r6 | r7 | r8 | r9 | sl | fp | ip | sp | lr | pc
  deriving DecidableEq, Repr

/-- Register contents that are not numbers: a pointer to byte `off` of an object, a return address, and an unknown value. -/
inductive Atom
  | ptr (obj : Nat) (off : Int)
  | code (n : Nat)
  | opq (n : Nat)
  deriving DecidableEq, Repr

/-- Contents of a register; `undef` is left behind by a called function that may use the register. -/
inductive Val (W : Type)
  | w (x : W)
  | a (x : Atom)
  | undef

/-- Contents of a halfword of memory: a number, one half of something that is not a number, or nothing (memory that has not been
written). -/
inductive Cell (H : Type)
  | half (x : H)
  | frag (x : Atom) (hi : Bool)
  | undef

/-- Operations on one word. -/
inductive Op1
  | id
  | lsl (n : Nat)
  | lsr (n : Nat)
  | asr (n : Nat)
  | ubfx (lsb width : Nat)
  | movt (imm : Nat)

/-- Operations on two words. -/
inductive Op2 | add | sub | mul | and | eor | uadd16 | usub16 | smulbb | smultb | smultt | smuad | smuadx | pkhbt | pkhtb | bic | ror

/-- Operations on three words; the last one is the accumulator. -/
inductive Op3 | smlabb | smlatt | smlad | smladx

/-- What words, halfwords and memory are.  `force` is the identity; symbolic domains use it to control the order of evaluation. -/
structure Dom where
  W : Type
  H : Type
  M : Type
  lo : W → H
  hi : W → H
  join : H → H → W
  zero : H
  const : Nat → W
  known : W → Option Nat
  op1 : Op1 → W → W
  op2 : Op2 → W → W → W
  op3 : Op3 → W → W → W → W
  rd : M → Nat → Nat → Option (Cell H)
  wr : M → Nat → Nat → Cell H → Option M
  force : {α : Type} → W → (W → α) → α

/-- Addressing with an offset, with the offset added to the register before the access (`[r, #n]!`) or after it (`[r], #n`). -/
inductive Idx | off | pre | post

/-- Instructions.  `ls i` and `ne i` are executed under the condition "lower or same" and "not equal"; `s i` sets the flags as well, and the flags are
not used; `ldc` loads a code address. -/
inductive Ins
  | op1 (o : Op1) (rd rm : Reg)
  | movi (rd : Reg) (imm : Nat)
  | op2 (o : Op2) (rd rn rm : Reg) (s : Op1)
  | op3 (o : Op3) (rd rn rm ra : Reg)
  | addi (rd rn : Reg) (imm : Int)
  | ldr (rd rn : Reg) (off : Int) (x : Idx)
  | ldrh (rd rn : Reg) (off : Int) (x : Idx)
  | str (rd rn : Reg) (off : Int) (x : Idx)
  | strh (rd rn : Reg) (off : Int) (x : Idx)
  | push (l : List Reg)
  | pop (l : List Reg)
  | cmp (rn rm : Reg)
  | cmpi (rn : Reg) (imm : Nat)
  | bx (rm : Reg)
  | ls (i : Ins)
  | ne (i : Ins)
  | s (i : Ins)
  | ldc (rd : Reg) (n : Nat)

/-- The flags after a comparison: "equal" and "lower or same". -/
structure Flags where
  eq : Option Bool
  ls : Option Bool

/-- Registers, memory and flags. -/
structure State (D : Dom) where
  (r0 r1 r2 r3 r4 r5 r6 r7 r8 r9 sl fp ip sp lr pc : Val D.W)
  mem : D.M
  fl : Flags

variable {D : Dom}

/-- Contents of a register. -/
def State.get (s : State D) : Reg → Val D.W
  | .r0 => s.r0 | .r1 => s.r1 | .r2 => s.r2 | .r3 => s.r3 | .r4 => s.r4 | .r5 => s.r5 | .r6 => s.r6 | .r7 => s.r7
  | .r8 => s.r8 | .r9 => s.r9 | .sl => s.sl | .fp => s.fp | .ip => s.ip | .sp => s.sp | .lr => s.lr | .pc => s.pc

/-- The state after writing `v` to a register. -/
def State.set (s : State D) (r : Reg) (v : Val D.W) : State D :=
  match s with
  | ⟨r0, r1, r2, r3, r4, r5, r6, r7, r8, r9, sl, fp, ip, sp, lr, pc, mem, fl⟩ =>
    match r with
    | .r0 => ⟨v, r1, r2, r3, r4, r5, r6, r7, r8, r9, sl, fp, ip, sp, lr, pc, mem, fl⟩
    | .r1 => ⟨r0, v, r2, r3, r4, r5, r6, r7, r8, r9, sl, fp, ip, sp, lr, pc, mem, fl⟩
    | .r2 => ⟨r0, r1, v, r3, r4, r5, r6, r7, r8, r9, sl, fp, ip, sp, lr, pc, mem, fl⟩
    | .r3 => ⟨r0, r1, r2, v, r4, r5, r6, r7, r8, r9, sl, fp, ip, sp, lr, pc, mem, fl⟩
    | .r4 => ⟨r0, r1, r2, r3, v, r5, r6, r7, r8, r9, sl, fp, ip, sp, lr, pc, mem, fl⟩
    | .r5 => ⟨r0, r1, r2, r3, r4, v, r6, r7, r8, r9, sl, fp, ip, sp, lr, pc, mem, fl⟩
    | .r6 => ⟨r0, r1, r2, r3, r4, r5, v, r7, r8, r9, sl, fp, ip, sp, lr, pc, mem, fl⟩
    | .r7 => ⟨r0, r1, r2, r3, r4, r5, r6, v, r8, r9, sl, fp, ip, sp, lr, pc, mem, fl⟩
    | .r8 => ⟨r0, r1, r2, r3, r4, r5, r6, r7, v, r9, sl, fp, ip, sp, lr, pc, mem, fl⟩
    | .r9 => ⟨r0, r1, r2, r3, r4, r5, r6, r7, r8, v, sl, fp, ip, sp, lr, pc, mem, fl⟩
    | .sl => ⟨r0, r1, r2, r3, r4, r5, r6, r7, r8, r9, v, fp, ip, sp, lr, pc, mem, fl⟩
    | .fp => ⟨r0, r1, r2, r3, r4, r5, r6, r7, r8, r9, sl, v, ip, sp, lr, pc, mem, fl⟩
    | .ip => ⟨r0, r1, r2, r3, r4, r5, r6, r7, r8, r9, sl, fp, v, sp, lr, pc, mem, fl⟩
    | .sp => ⟨r0, r1, r2, r3, r4, r5, r6, r7, r8, r9, sl, fp, ip, v, lr, pc, mem, fl⟩
    | .lr => ⟨r0, r1, r2, r3, r4, r5, r6, r7, r8, r9, sl, fp, ip, sp, v, pc, mem, fl⟩
    | .pc => ⟨r0, r1, r2, r3, r4, r5, r6, r7, r8, r9, sl, fp, ip, sp, lr, v, mem, fl⟩

/-- The state with another memory. -/
def State.setMem (s : State D) (m : D.M) : State D :=
  match s with
  | ⟨r0, r1, r2, r3, r4, r5, r6, r7, r8, r9, sl, fp, ip, sp, lr, pc, _, fl⟩ =>
    ⟨r0, r1, r2, r3, r4, r5, r6, r7, r8, r9, sl, fp, ip, sp, lr, pc, m, fl⟩

/-- The state with other flags. -/
def State.setFl (s : State D) (f : Flags) : State D :=
  match s with
  | ⟨r0, r1, r2, r3, r4, r5, r6, r7, r8, r9, sl, fp, ip, sp, lr, pc, m, _⟩ =>
    ⟨r0, r1, r2, r3, r4, r5, r6, r7, r8, r9, sl, fp, ip, sp, lr, pc, m, f⟩

/-- The number in a register, if there is one. -/
def asW : Val D.W → Option D.W
  | .w x => some x
  | _ => none

/-- Write a number to a register. -/
def setW (s : State D) (r : Reg) (x : D.W) : Option (State D) := D.force x fun x => some (s.set r (.w x))

/-- The halfword index addressed by a register plus an offset: the object and the index. -/
def addr (v : Val D.W) (off : Int) : Option (Nat × Nat) :=
  match v with
  | .a (.ptr o k) => let e := k + off
    match e with
    | .ofNat n => if n % 2 = 0 then some (o, n / 2) else none
    | .negSucc _ => none
  | _ => none

/-- A pointer plus a constant, or a number plus a constant known in advance. -/
def addVal (v : Val D.W) (imm : Int) : Option (Val D.W) :=
  match v with
  | .a (.ptr o k) => match k + imm with
    | .ofNat n => some (.a (.ptr o (.ofNat n)))
    | .negSucc n => some (.a (.ptr o (.negSucc n)))
  | .w x => match D.known x with
    | some n => some (.w (D.const (n + (imm % 4294967296).toNat)))
    | none => none
  | _ => none

/-- Load a word. -/
def load (m : D.M) (o i : Nat) : Option (Val D.W) :=
  match D.rd m o i, D.rd m o (i + 1) with
  | some (.half l), some (.half h) => some (.w (D.join l h))
  | some (.frag x false), some (.frag y true) => if x = y then some (.a x) else none
  | _, _ => none

/-- Load a halfword, extended with zeros. -/
def loadH (m : D.M) (o i : Nat) : Option (Val D.W) :=
  match D.rd m o i with
  | some (.half l) => some (.w (D.join l D.zero))
  | _ => none

/-- Store a word. -/
def store (m : D.M) (o i : Nat) (v : Val D.W) : Option D.M :=
  match v with
  | .w x => match D.wr m o i (.half (D.lo x)) with
    | some m => D.wr m o (i + 1) (.half (D.hi x))
    | none => none
  | .a x => match D.wr m o i (.frag x false) with
    | some m => D.wr m o (i + 1) (.frag x true)
    | none => none
  | .undef => match D.wr m o i .undef with
    | some m => D.wr m o (i + 1) .undef
    | none => none

/-- Store the lower half of a word. -/
def storeH (m : D.M) (o i : Nat) (v : Val D.W) : Option D.M :=
  match v with
  | .w x => D.wr m o i (.half (D.lo x))
  | _ => none

/-- Write a value to a register. -/
def setV (s : State D) (r : Reg) (v : Val D.W) : Option (State D) :=
  match v with
  | .w x => setW s r x
  | .a x => some (s.set r (.a x))
  | .undef => some (s.set r .undef)

/-- The address of an access and the new contents of the base register. -/
def index (v : Val D.W) (off : Int) : Idx → Option ((Nat × Nat) × Option (Val D.W))
  | .off => match addr v off with
    | some a => some (a, none)
    | none => none
  | .pre => match addr v off, addVal v off with
    | some a, some b => some (a, some b)
    | _, _ => none
  | .post => match addr v 0, addVal v off with
    | some a, some b => some (a, some b)
    | _, _ => none

/-- Update the base register. -/
def wback (s : State D) (rn : Reg) : Option (Val D.W) → Option (State D)
  | none => some s
  | some v => setV s rn v

/-- Store registers at consecutive words. -/
def pushAll (s : State D) (o : Nat) : Nat → List Reg → D.M → Option D.M
  | _, [], m => some m
  | i, r :: l, m => match store m o i (s.get r) with
    | some m => pushAll s o (i + 2) l m
    | none => none

/-- Load registers from consecutive words. -/
def popAll (m : D.M) (o : Nat) : Nat → List Reg → State D → Option (State D)
  | _, [], s => some s
  | i, r :: l, s => match load m o i with
    | some v => match setV s r v with
      | some s => popAll m o (i + 2) l s
      | none => none
    | none => none

/-- Comparison of two pointers to the same object, or of two known numbers. -/
def compare (x y : Val D.W) : Option Flags :=
  match x, y with
  | .a (.ptr o i), .a (.ptr o' j) => if o = o' then some ⟨some (decide (i = j)), none⟩ else none
  | .w x, .w y => match D.known x, D.known y with
    | some a, some b => some ⟨some (decide (a = b)), some (decide (a ≤ b))⟩
    | _, _ => none
  | _, _ => none

/-- An operation on the number in `rm`. -/
def op1W (o : Op1) (rd rm : Reg) (s : State D) : Option (State D) :=
  match asW (s.get rm) with
  | some x => setW s rd (D.op1 o x)
  | none => none

/-- One instruction. -/
def step : Ins → State D → Option (State D)
  | .op1 .id rd rm, s => setV s rd (s.get rm)
  | .op1 o rd rm, s => op1W o rd rm s
  | .movi rd imm, s => setW s rd (D.const imm)
  | .op2 o rd rn rm sh, s => match asW (s.get rn), asW (s.get rm) with
    | some x, some y => setW s rd (D.op2 o x (D.op1 sh y))
    | _, _ => none
  | .op3 o rd rn rm ra, s => match asW (s.get rn), asW (s.get rm), asW (s.get ra) with
    | some x, some y, some z => setW s rd (D.op3 o x y z)
    | _, _, _ => none
  | .addi rd rn imm, s => match addVal (s.get rn) imm with
    | some v => setV s rd v
    | none => none
  | .ldr rd rn off x, s => match index (s.get rn) off x with
    | some ((o, i), b) => match load s.mem o i with
      | some v => match wback s rn b with
        | some s => setV s rd v
        | none => none
      | none => none
    | none => none
  | .ldrh rd rn off x, s => match index (s.get rn) off x with
    | some ((o, i), b) => match loadH s.mem o i with
      | some v => match wback s rn b with
        | some s => setV s rd v
        | none => none
      | none => none
    | none => none
  | .str rd rn off x, s => match index (s.get rn) off x with
    | some ((o, i), b) => match store s.mem o i (s.get rd) with
      | some m => match wback s rn b with
        | some s => some (s.setMem m)
        | none => none
      | none => none
    | none => none
  | .strh rd rn off x, s => match index (s.get rn) off x with
    | some ((o, i), b) => match storeH s.mem o i (s.get rd) with
      | some m => match wback s rn b with
        | some s => some (s.setMem m)
        | none => none
      | none => none
    | none => none
  | .push l, s => match addVal (s.get .sp) (-4 * l.length) with
    | some v => match addr v 0 with
      | some (o, i) => match pushAll s o i l s.mem with
        | some m => some ((s.set .sp v).setMem m)
        | none => none
      | none => none
    | none => none
  | .pop l, s => match addVal (s.get .sp) (4 * l.length), addr (s.get .sp) 0 with
    | some v, some (o, i) => match popAll s.mem o i l s with
      | some s => some (s.set .sp v)
      | none => none
    | _, _ => none
  | .cmp rn rm, s => match compare (s.get rn) (s.get rm) with
    | some f => some (s.setFl f)
    | none => none
  | .cmpi rn imm, s => match compare (s.get rn) (.w (D.const imm)) with
    | some f => some (s.setFl f)
    | none => none
  | .bx rm, s => some (s.set .pc (s.get rm))
  | .ls i, s => match s.fl.ls with
    | some true => step i s
    | some false => some s
    | none => none
  | .ne i, s => match s.fl.eq with
    | some false => step i s
    | some true => some s
    | none => none
  | .s i, s => match step i s with
    | some s => some (s.setFl ⟨none, none⟩)
    | none => none
  | .ldc rd n, s => some (s.set rd (.a (.code n)))

/-- A sequence of instructions. -/
def steps : List Ins → State D → Option (State D)
  | [], s => some s
  | i :: l, s => match step i s with
    | some s => steps l s
    | none => none

/-- `label: body; bne label`, at most `fuel` times. -/
def doNe (body : List Ins) : Nat → State D → Option (State D)
  | 0, _ => none
  | n + 1, s => match steps body s with
    | some s => match s.fl.eq with
      | some true => some s
      | some false => doNe body n s
      | none => none
    | none => none

/-- Pieces of a function: instructions, a loop `label: body; bne label`, and a call of one of several functions. -/
inductive Stmt
  | ins (l : List Ins)
  | loop (body : List Ins)
  | call (f : Nat)

/-- `bl f` followed by the rest of the caller: the return address is a fresh code address, and the function must return there. -/
def callFn (f : State D → Option (State D)) (ret : Nat) (s : State D) : Option (State D) :=
  match f (s.set .lr (.a (.code ret))) with
  | some s => match s.pc with
    | .a (.code n) => if n = ret then some s else none
    | _ => none
  | none => none

/-- A function body; `f` gives the functions that it calls.  Loops run at most 256 times. -/
def run (f : Nat → State D → Option (State D)) : Nat → List Stmt → State D → Option (State D)
  | _, [], s => some s
  | n, .ins l :: t, s => match steps l s with
    | some s => run f n t s
    | none => none
  | n, .loop b :: t, s => match doNe b 256 s with
    | some s => run f n t s
    | none => none
  | n, .call k :: t, s => match callFn (f k) n s with
    | some s => run f (n + 1) t s
    | none => none

/-- Store zero in `n` halfwords. -/
def zeros (o : Nat) : Nat → Nat → D.M → Option D.M
  | 0, _, m => some m
  | n + 1, i, m => match D.wr m o i (.half D.zero) with
    | some m => zeros o n (i + 1) m
    | none => none

/-- `memset(r0, 0, r2)` of the C library, for a number of bytes that is even: it returns its first argument in `r0`, may change the other
registers that a function may change, and returns to the caller. -/
def memset0 (s : State D) : Option (State D) :=
  match addr s.r0 0, asW s.r1, asW s.r2 with
  | some (o, i), some c, some n => match D.known c, D.known n with
    | some 0, some n => if n % 2 = 0 then
        match zeros o (n / 2) i s.mem with
        | some m => some ((((((((s.set .r1 .undef).set .r2 .undef).set .r3 .undef).set .ip .undef).set .pc s.lr).set .lr .undef).setMem
            m).setFl ⟨none, none⟩)
        | none => none
      else none
    | _, _ => none
  | _, _, _ => none

/-! ### The machine -/

/-- `Op1` on 32-bit words. -/
def cop1 : Op1 → BitVec 32 → BitVec 32
  | .id, x => x
  | .lsl n, x => x <<< n
  | .lsr n, x => x >>> n
  | .asr n, x => x.sshiftRight n
  | .ubfx lsb w, x => (x >>> lsb) &&& BitVec.ofNat 32 (2 ^ w - 1)
  | .movt imm, x => BitVec.ofNat 16 imm ++ x.setWidth 16

/-- The lower and the upper half of a word. -/
def clo (x : BitVec 32) : BitVec 16 := x.setWidth 16
@[inherit_doc clo] def chi (x : BitVec 32) : BitVec 16 := (x >>> 16).setWidth 16

/-- Signed product of two halfwords. -/
def smul (x y : BitVec 16) : BitVec 32 := x.signExtend 32 * y.signExtend 32

/-- `Op2` on 32-bit words. -/
def cop2 : Op2 → BitVec 32 → BitVec 32 → BitVec 32
  | .add, x, y => x + y
  | .sub, x, y => x - y
  | .mul, x, y => x * y
  | .and, x, y => x &&& y
  | .eor, x, y => x ^^^ y
  | .uadd16, x, y => (chi x + chi y) ++ (clo x + clo y)
  | .usub16, x, y => (chi x - chi y) ++ (clo x - clo y)
  | .smulbb, x, y => smul (clo x) (clo y)
  | .smultb, x, y => smul (chi x) (clo y)
  | .smultt, x, y => smul (chi x) (chi y)
  | .smuad, x, y => smul (clo x) (clo y) + smul (chi x) (chi y)
  | .smuadx, x, y => smul (clo x) (chi y) + smul (chi x) (clo y)
  | .pkhbt, x, y => chi y ++ clo x
  | .pkhtb, x, y => chi x ++ clo y
  | .bic, x, y => x &&& ~~~y
  | .ror, x, y => x.rotateRight (y.toNat % 256)

/-- `Op3` on 32-bit words. -/
def cop3 : Op3 → BitVec 32 → BitVec 32 → BitVec 32 → BitVec 32
  | .smlabb, x, y, z => smul (clo x) (clo y) + z
  | .smlatt, x, y, z => smul (chi x) (chi y) + z
  | .smlad, x, y, z => smul (clo x) (clo y) + smul (chi x) (chi y) + z
  | .smladx, x, y, z => smul (clo x) (chi y) + smul (chi x) (clo y) + z

/-- The machine. -/
def conc : Dom where
  W := BitVec 32
  H := BitVec 16
  M := List (List (Cell (BitVec 16)))
  lo := clo
  hi := chi
  join l h := h ++ l
  zero := 0
  const n := BitVec.ofNat 32 n
  known x := some x.toNat
  op1 := cop1
  op2 := cop2
  op3 := cop3
  rd m o i := match m[o]? with
    | some a => a[i]?
    | none => none
  wr m o i c := match m[o]? with
    | some a => if i < a.length then some (m.set o (a.set i c)) else none
    | none => none
  force x k := k x

end Saber.Arm
