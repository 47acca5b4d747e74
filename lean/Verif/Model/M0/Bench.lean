import Verif.Spec.Bench
/-!
# `Cortex-M0/saber-ref-mem`: the measurement program and its host script

`src/uart.c` (transmitter), `src/benchmark.c` (timer), the two programs `SPEED` and `MEMSIZE` of `src/main.c`, and `evaluate.py`.

The hardware is part of the model.  The transmitter has a queue of 32 bytes (`TBCTR` size 5, uart.c:52-56); the hardware takes bytes from
its front at its own pace, a parameter, and drops a byte that is written to a full queue.  The timer is that of the ARMv6-M
architecture manual: it counts down once per clock while it is enabled, is loaded with `SYST_RVR` at the clock after it was 0, asks for an
interrupt when it goes from 1 to 0, and any write to `SYST_CVR` makes it 0.  The set-up of the peripherals (uart.c:5-97, main.c:18-27) is not modelled:
nothing is received before the program starts.
-/
namespace Saber.M0
open Spec.KatFile (str decimal)

/-! ## uart.c -/

/-- The transmitter. -/
structure Uart where
  /-- bytes in the queue, oldest first -/
  fifo : List Byte
  /-- bytes that have been sent -/
  line : List Byte
  /-- number of accesses of the program so far -/
  time : Nat
  deriving DecidableEq

/-- What the hardware does before access number `u.time` of the program: it sends `pace u.time` bytes, or all that there are. -/
def transmit (pace : Nat → Nat) (u : Uart) : Uart :=
  { fifo := u.fifo.drop (pace u.time), line := u.line ++ u.fifo.take (pace u.time), time := u.time + 1 }

/-- `USIC0_CH0_IN[0] = b` (uart.c:104, 124, ...): the byte is lost if the queue is full. -/
def put (pace : Nat → Nat) (u : Uart) (b : Byte) : Uart :=
  let u := transmit pace u
  if u.fifo.length < 32 then { u with fifo := u.fifo ++ [b] } else u

/-- `while ((USIC0_CH0_TRBSR & BIT11) == 0);` (uart.c:141, 149): wait until the queue is empty.  That this happens is taken for granted. -/
def waitEmpty (u : Uart) : Uart := { fifo := [], line := u.line ++ u.fifo, time := u.time + 1 }

/-- The loop of `UART_Write` (uart.c:103-105): `k` bytes from index `i`. -/
def writeLoop (pace : Nat → Nat) (s : List Byte) : Nat → Nat → Uart → CM Uart
  | 0, _, u => pure u
  | k + 1, i, u => do
    let b ← rd s i
    writeLoop pace s k (i + 1) (put pace u b)

/-- `UART_Write` (uart.c:99-106). -/
def UART_Write (pace : Nat → Nat) (s : List Byte) (len : Byte) (u : Uart) : CM Uart := writeLoop pace s len.toNat 0 u

/-- A digit (uart.c:128-132, 156-160); `j` is below 16. -/
def digitChar (j : Byte) : Byte := if j.toNat < 10 then 48 + j else 65 + j - 10

/-- The loop over the digits (uart.c:126-133, 154-161): digits `k - 1` down to 0. -/
def sendDigits (pace : Nat → Nat) (ui : BitVec 32) : Nat → Uart → Uart
  | 0, u => u
  | i + 1, u => sendDigits pace ui i (put pace u (digitChar (((ui >>> (4 * i)) &&& 0x0F#32).setWidth 8)))

/-- `UART_SendAddr` (uart.c:119-136). -/
def UART_SendAddr (pace : Nat → Nat) (ui : BitVec 32) (u : Uart) : Uart :=
  let u := put pace u 48
  let u := put pace u 120
  let u := sendDigits pace ui 8 u
  let u := put pace u 13
  put pace u 10

/-- `UART_SendTrace` (uart.c:138-144). -/
def UART_SendTrace (pace : Nat → Nat) (s : List Byte) (len : Byte) (ui : BitVec 32) (u : Uart) : CM Uart := do
  let u := waitEmpty u
  let u ← UART_Write pace s len u
  pure (UART_SendAddr pace ui u)

/-- `UART_SendWord` (uart.c:146-164); `w` is promoted to `int`. -/
def UART_SendWord (pace : Nat → Nat) (w : BitVec 16) (u : Uart) : Uart :=
  let u := waitEmpty u
  let u := put pace u 48
  let u := put pace u 120
  let u := sendDigits pace (w.setWidth 32) 4 u
  let u := put pace u 13
  put pace u 10

/-- The loop of `UART_Read` (uart.c:112-115); `rx` is what is received until the receive queue is found empty, `i` wraps at 256. -/
def readLoop : List Byte → Byte → List Byte → CM (Byte × List Byte)
  | [], i, s => pure (i, s)
  | b :: rx, i, s => do
    let s ← wr s i.toNat b
    readLoop rx (i + 1) s

/-- `UART_Read` (uart.c:108-117). -/
def UART_Read (rx s : List Byte) : CM (Byte × List Byte) := readLoop rx 0 s

/-! ## main.c, `MEMSIZE` -/

/-- Memory: a byte per address.  Only the stack below `a` matters; the variables of the program (`p`, `ctr`, `canary`) are elsewhere. -/
abbrev Mem := Nat → Byte

/-- `MAXSTACK` (main.c:105). -/
def MAXSTACK : Nat := 0x2880

/-- The loop of `WRITE_CANARY` (main.c:129) from address `p` down; `lo` is `X - MAXSTACK`. -/
def canaryLoop (canary : Byte) (lo : Nat) : Nat → Mem → Mem
  | 0, m => if 0 ≥ lo then fun x => if x = 0 then canary else m x else m
  | p + 1, m => if p + 1 ≥ lo then canaryLoop canary lo p (fun x => if x = p + 1 then canary else m x) else m

/-- `WRITE_CANARY` (main.c:129). -/
def WRITE_CANARY (canary : Byte) (X : Nat) (m : Mem) : Mem := canaryLoop canary (X - MAXSTACK) X m

/-- The loop of `stack_count` (main.c:121-125); the first number is `a - p`. -/
def countLoop (canaryv : Byte) (m : Mem) : Nat → Nat → BitVec 32 → BitVec 32
  | 0, _, c => c
  | k + 1, p, c => if m p = canaryv then countLoop canaryv m k (p + 1) (c + 1) else c

/-- `stack_count` (main.c:116-127). -/
def stack_count (canaryv : Byte) (a : Nat) (m : Mem) : BitVec 32 :=
  let p := a - MAXSTACK
  countLoop canaryv m (a - p) p 0

/-- Simplification: a call is the list of the bytes that it writes to memory, address and value, in order. -/
abbrev Writes := List (Nat × Byte)

/-- Memory after some writes. -/
def perform (w : Writes) (m : Mem) : Mem := w.foldl (fun m p x => if x = p.1 then p.2 else m x) m

/-- One measurement (main.c:143-145): canary, call, count.  Returns `ctr` and the memory. -/
def measureStack (a : Nat) (w : Writes) (m : Mem) : BitVec 32 × Mem :=
  let m := WRITE_CANARY 42 a m
  let m := perform w m
  (BitVec.ofNat 32 MAXSTACK - stack_count 42 a m, m)

/-- `main` with `MEMSIZE` (main.c:131-174).  `w` gives the writes of the three calls; the last measurement is of three calls. -/
def mainMemsize (pace : Nat → Nat) (a : Nat) (w1 w2 w3 w4 w5 w6 : Writes) (m : Mem) : CM Uart := do
  let (ctr, m) := measureStack a w1 m
  let u ← UART_SendTrace pace (str "RAM keygen\x00") 10 ctr ⟨[], [], 0⟩
  let (ctr, m) := measureStack a w2 m
  let u ← UART_SendTrace pace (str "RAM encaps\x00") 10 ctr u
  let (ctr, m) := measureStack a w3 m
  let u ← UART_SendTrace pace (str "RAM decaps\x00") 10 ctr u
  let (ctr, _) := measureStack a (w4 ++ w5 ++ w6) m
  UART_SendTrace pace (str "RAM total\x00") 9 ctr u

/-! ## benchmark.c -/

/-- The value of `SYST_RVR` (benchmark.c:19). -/
def RVR : Nat := 0x00FFFFFF

/-- The timer and the two variables of benchmark.c:6-7. -/
structure SysTick where
  /-- bit 0 of `SYST_CSR` -/
  enabled : Bool
  /-- `SYST_CVR` -/
  cvr : Nat
  /-- an interrupt is waiting -/
  pending : Bool
  /-- `timer_overflow` -/
  timer_overflow : BitVec 32
  /-- `calibration_value` -/
  calibration_value : BitVec 32

/-- `SysTick_Handler` (benchmark.c:9-13).  Simplification: both assignments at one clock. -/
def SysTick_Handler (s : SysTick) : SysTick :=
  { s with timer_overflow := s.timer_overflow + 1, cvr := 0, pending := false }

/-- One clock of the timer (hardware); `serve`: the processor gets to the assignments of the handler at this clock if an interrupt is waiting. -/
def clock (serve : Bool) (s : SysTick) : SysTick :=
  if s.enabled then
    let s' := { s with cvr := if s.cvr = 0 then RVR else s.cvr - 1, pending := s.pending || s.cvr = 1 }
    if serve && s'.pending then SysTick_Handler s' else s'
  else s

/-- `t` clocks, with the handler served when `serve` says so. -/
def elapse (serve : Nat → Bool) : Nat → SysTick → SysTick
  | 0, s => s
  | t + 1, s => clock (serve t) (elapse serve t s)

/-- `start_tick_count` (benchmark.c:29-38); an interrupt that is waiting is served when interrupts are enabled (36). -/
def start_tick_count (s : SysTick) : SysTick :=
  let s := { s with timer_overflow := 0, cvr := 0 }
  let s := if s.pending then SysTick_Handler s else s
  { s with enabled := !s.enabled }

/-- The loop `while (timer_overflow--)` (benchmark.c:48-50) with what it adds. -/
def overflowLoop (inc : BitVec 32) : Nat → BitVec 32 → BitVec 32
  | 0, ticks => ticks
  | k + 1, ticks => overflowLoop inc k (ticks + inc)

/-- `end_tick_count` (benchmark.c:40-53); `late`: an interrupt that waits when the timer is stopped is served before line 46. -/
def end_tick_count (late : Bool) (s : SysTick) : BitVec 32 × SysTick :=
  let s := { s with enabled := !s.enabled }
  let s := if late && s.pending then SysTick_Handler s else s
  let ticks := BitVec.ofNat 32 RVR - BitVec.ofNat 32 s.cvr
  let ticks := overflowLoop (BitVec.ofNat 32 RVR) s.timer_overflow.toNat ticks
  (ticks - s.calibration_value, { s with timer_overflow := 0xFFFFFFFF })

/-- A measurement: `start_tick_count`, `t` clocks, `end_tick_count` (main.c:73-77). -/
def measureTime (serve : Nat → Bool) (t : Nat) (late : Bool) (s : SysTick) : BitVec 32 × SysTick :=
  end_tick_count late (elapse serve t (start_tick_count s))

/-- `setup_tick_count` (benchmark.c:15-27); `t` clocks pass between the start and the end. -/
def setup_tick_count (serve : Nat → Bool) (t : Nat) (late : Bool) (s : SysTick) : SysTick :=
  let s := { s with calibration_value := 0, cvr := 0, enabled := false }
  let (c, s) := measureTime serve t late s
  { s with calibration_value := c }

/-- What a measurement depends on: when the handler is served, number of clocks, whether a late interrupt is served. -/
structure Clocks where
  serve : Nat → Bool
  t : Nat
  late : Bool

/-- `main` with `SPEED` (main.c:57-99).  The calls of the scheme appear only through the clocks that they take. -/
def mainSpeed (pace : Nat → Nat) (c0 c1 c2 c3 : Clocks) : CM Uart := do
  let s := setup_tick_count c0.serve c0.t c0.late ⟨false, 0, false, 0, 0⟩
  let (time, s) := measureTime c1.serve c1.t c1.late s
  let u ← UART_SendTrace pace (str "keygen time= \x00") 13 time ⟨[], [], 0⟩
  let (time, s) := measureTime c2.serve c2.t c2.late s
  let u ← UART_SendTrace pace (str "encaps time= \x00") 13 time u
  let (time, _) := measureTime c3.serve c3.t c3.late s
  UART_SendTrace pace (str "decaps time= \x00") 13 time u

/-! ## evaluate.py -/

/-- `ser.readline()` (evaluate.py:56, ...): the bytes up to the first line feed, and the rest; `none` if it waits forever. -/
def readline : List Byte → Option (List Byte × List Byte)
  | [] => none
  | b :: s => if b = 10 then some ([b], s) else (readline s).map fun p => (b :: p.1, p.2)

/-- `[0-9A-F]` with `re.I`. -/
def isHexDigit (b : Byte) : Bool :=
  (48 ≤ b.toNat && b.toNat ≤ 57) || (65 ≤ b.toNat && b.toNat ≤ 70) || (97 ≤ b.toNat && b.toNat ≤ 102)

/-- The digits of the first match of `0x[0-9A-F]+` with `re.I` (evaluate.py:57); `none` if there is no match (`IndexError`). -/
def findHex : List Byte → Option (List Byte)
  | b :: c :: d :: s =>
    if b = 48 ∧ (c = 120 ∨ c = 88) ∧ isHexDigit d then some (d :: s.takeWhile isHexDigit) else findHex (c :: d :: s)
  | _ => none

/-- Value of a digit. -/
def hexVal (b : Byte) : Nat := if b.toNat ≤ 57 then b.toNat - 48 else if b.toNat ≤ 70 then b.toNat - 55 else b.toNat - 87

/-- `int(s, 16)`. -/
def pyInt16 (s : List Byte) : Nat := s.foldl (fun n b => 16 * n + hexVal b) 0

/-- One line of the serial port (evaluate.py:56-58): what is printed, and what is still to be read. -/
def evalLine (before after : String) (s : List Byte) : Option (List Byte × List Byte) := do
  let (line, s) ← readline s
  let digits ← findHex line
  pure (str before ++ decimal (pyInt16 digits) ++ str after, s)

/-- `main` of evaluate.py (56-69 and 77-87); `s1` is what the board sends when it runs `MEMSIZE`, `s2` for `SPEED`.  Simplification: all of the
first is read before the second program is started.  `none` if the script stops with an exception or waits forever. -/
def evaluate (s1 s2 : List Byte) : Option (List Byte) := do
  let (o1, s) ← evalLine "RAM for key_gen = " " bytes\n" s1
  let (o2, s) ← evalLine "RAM for encaps = " " bytes\n" s
  let (o3, s) ← evalLine "RAM for decaps = " " bytes\n" s
  let (o4, s) ← evalLine "Total RAM for Saber# = " " bytes\n" s
  let s := s ++ s2
  let (o5, s) ← evalLine "Time for key_gen = " " clock cycles\n" s
  let (o6, s) ← evalLine "Time for encaps = " " clock cycles\n" s
  let (o7, _) ← evalLine "Time for decaps = " " clock cycles\n" s
  pure (o1 ++ o2 ++ o3 ++ o4 ++ str "benchmark of memory done!\n" ++ o5 ++ o6 ++ o7 ++ str "benchmark of time done!\n")

end Saber.M0
