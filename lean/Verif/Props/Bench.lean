import Verif.Proof.M0.Bench
/-!
# C85, C86, C87: the measurement program of Cortex-M0 and its host script

`pace` says how many bytes the serial port sends between two accesses of the program; `u.line ++ u.fifo` is what it has sent or will send.
-/
namespace Saber.Props
open M0 Spec.Bench Spec.KatFile

/-! ## C85: the serial port and the host -/

private theorem ok_then {α β : Type} (x : α) (f : α → CM β) : ((.ok x : CM α) >>= f) = f x := rfl

/-- C85: however slow the serial port is, `UART_SendTrace` with at most 20 characters sends the characters and the number, all of them and in
order, after everything that was sent before. -/
theorem C85_send_trace (pace : Nat → Nat) (s : List Byte) (len : Byte) (n : BitVec 32) (u : Uart) (hs : len.toNat ≤ s.length) (hl : len.toNat ≤ 20) :
    ∃ u', UART_SendTrace pace s len n u = .ok u' ∧ u'.line ++ u'.fifo = u.line ++ u.fifo ++ s.take len.toNat ++ hexLine n.toNat := by
  refine ⟨_, SendTrace_eq pace s len n u hs, ?_⟩
  have h := (puts_ok pace (s.take len.toNat ++ hexLine n.toNat) (waitEmpty u) (by
    simp only [waitEmpty, List.length_nil, List.length_append, List.length_take, length_hexLine]; omega)).1
  rw [sent_waitEmpty] at h
  simpa [Uart.sent] using h

/-- C85: 20 is the limit: with more characters, a port that sends nothing while the function runs loses the end of the line. -/
theorem C85_send_trace_sharp (s : List Byte) (len : Byte) (n : BitVec 32) (u : Uart) (hs : len.toNat ≤ s.length) (hl : 20 < len.toNat) :
    ∃ u', UART_SendTrace (fun _ => 0) s len n u = .ok u' ∧ u'.line ++ u'.fifo = u.line ++ u.fifo ++ (s.take len.toNat ++ hexLine n.toNat).take 32 ∧
      u'.line ++ u'.fifo ≠ u.line ++ u.fifo ++ s.take len.toNat ++ hexLine n.toNat := by
  have h := puts_slow (s.take len.toNat ++ hexLine n.toNat) (waitEmpty u) (by simp [waitEmpty])
  rw [sent_waitEmpty] at h
  have h' : (puts (fun _ => 0) (waitEmpty u) (s.take len.toNat ++ hexLine n.toNat)).line ++ (puts (fun _ => 0) (waitEmpty u) (s.take len.toNat ++ hexLine n.toNat)).fifo =
      u.line ++ u.fifo ++ (s.take len.toNat ++ hexLine n.toNat).take 32 := h
  refine ⟨_, SendTrace_eq _ s len n u hs, h', fun hc => ?_⟩
  rw [h'] at hc
  have := congrArg List.length hc
  simp only [List.length_append, List.length_take, length_hexLine] at this
  omega

/-- C85: `UART_SendWord` sends its number with four digits. -/
theorem C85_send_word (pace : Nat → Nat) (w : BitVec 16) (u : Uart) :
    (UART_SendWord pace w u).line ++ (UART_SendWord pace w u).fifo = u.line ++ u.fifo ++ str "0x" ++ hex 4 w.toNat ++ str "\r\n" := by
  rw [SendWord_eq]
  have h := (puts_ok pace (str "0x" ++ hex 4 w.toNat ++ str "\r\n") (waitEmpty u) (by
    simp [waitEmpty, length_hex, str0x, strCrLf])).1
  rw [sent_waitEmpty] at h
  simpa [Uart.sent] using h

/-- C85: `UART_Write` does not wait: it is complete when there is room in the queue ... -/
theorem C85_write (pace : Nat → Nat) (s : List Byte) (len : Byte) (u : Uart) (hs : len.toNat ≤ s.length) (hl : u.fifo.length + len.toNat ≤ 32) :
    ∃ u', UART_Write pace s len u = .ok u' ∧ u'.line ++ u'.fifo = u.line ++ u.fifo ++ s.take len.toNat := by
  refine ⟨_, writeLoop_eq pace s len.toNat 0 u (by omega), ?_⟩
  exact (puts_ok pace (s.take len.toNat) u (by simp only [List.length_take]; omega)).1

/-- C85: ... and loses bytes when there is not and the port does not send meanwhile. -/
theorem C85_write_sharp (s : List Byte) (len : Byte) (u : Uart) (hu : u.fifo.length ≤ 32) (hs : len.toNat ≤ s.length) (hl : 32 < u.fifo.length + len.toNat) :
    ∃ u', UART_Write (fun _ => 0) s len u = .ok u' ∧ u'.line ++ u'.fifo ≠ u.line ++ u.fifo ++ s.take len.toNat := by
  refine ⟨_, writeLoop_eq _ s len.toNat 0 u (by omega), fun hc => ?_⟩
  have h := puts_slow (s.take len.toNat) u hu
  have h2 : (puts (fun _ => 0) u (s.take len.toNat)).sent = u.sent ++ s.take len.toNat := hc
  rw [h] at h2
  have := congrArg List.length h2
  simp only [List.length_append, List.length_take] at this
  omega

/-- C85: the message of `rng_enable` (prng.c:32) is sent with the zero byte at its end. -/
theorem C85_prng_message (pace : Nat → Nat) :
    ∃ u', UART_Write pace (str "PRNG ERROR\r\n\x00") 13 ⟨[], [], 0⟩ = .ok u' ∧ u'.line ++ u'.fifo = str "PRNG ERROR\r\n" ++ [0] := by
  obtain ⟨u', h1, h2⟩ := C85_write pace (str "PRNG ERROR\r\n\x00") 13 ⟨[], [], 0⟩ (by decide +kernel) (by decide +kernel)
  exact ⟨u', h1, by rw [h2]; decide +kernel⟩

/-- C85: `UART_Read` stores what is received if there is room for it ... -/
theorem C85_read (rx s : List Byte) (h : rx.length ≤ s.length) (hb : rx.length < 256) :
    UART_Read rx s = .ok (BitVec.ofNat 8 rx.length, rx ++ s.drop rx.length) := by
  have := readLoop_ok rx s [] 0 rfl (by simpa using h) (by simpa using hb) (by simp)
  simpa [UART_Read] using this

/-- C85: ... and writes outside of the buffer if more is received: the function has no limit. -/
theorem C85_read_overflow (rx s : List Byte) (h : s.length < rx.length) (hb : s.length < 256) : UART_Read rx s = .error .oob :=
  readLoop_oob rx s 0 hb (by simp) (by simpa using h)

/-- C85: what the host prints.  For all numbers that the board sends with the labels of main.c and for every pace of the serial port, the script
prints these numbers, each on its line. -/
theorem C85_evaluate (pace1 pace2 : Nat → Nat) (k1 e1 d1 t1 k2 e2 d2 : BitVec 32) (u1 u2 : Uart)
    (h1 : (do
      let u ← UART_SendTrace pace1 (str "RAM keygen\x00") 10 k1 ⟨[], [], 0⟩
      let u ← UART_SendTrace pace1 (str "RAM encaps\x00") 10 e1 u
      let u ← UART_SendTrace pace1 (str "RAM decaps\x00") 10 d1 u
      UART_SendTrace pace1 (str "RAM total\x00") 9 t1 u) = .ok u1)
    (h2 : (do
      let u ← UART_SendTrace pace2 (str "keygen time= \x00") 13 k2 ⟨[], [], 0⟩
      let u ← UART_SendTrace pace2 (str "encaps time= \x00") 13 e2 u
      UART_SendTrace pace2 (str "decaps time= \x00") 13 d2 u) = .ok u2) :
    evaluate (u1.line ++ u1.fifo) (u2.line ++ u2.fifo) =
      some (memoryReport k1.toNat e1.toNat d1.toNat t1.toNat ++ timeReport k2.toNat e2.toNat d2.toNat) := by
  obtain ⟨a1, ha1, la1⟩ := C85_send_trace pace1 (str "RAM keygen\x00") 10 k1 ⟨[], [], 0⟩ (by decide +kernel) (by decide)
  obtain ⟨a2, ha2, la2⟩ := C85_send_trace pace1 (str "RAM encaps\x00") 10 e1 a1 (by decide +kernel) (by decide)
  obtain ⟨a3, ha3, la3⟩ := C85_send_trace pace1 (str "RAM decaps\x00") 10 d1 a2 (by decide +kernel) (by decide)
  obtain ⟨a4, ha4, la4⟩ := C85_send_trace pace1 (str "RAM total\x00") 9 t1 a3 (by decide +kernel) (by decide)
  obtain ⟨b1, hb1, lb1⟩ := C85_send_trace pace2 (str "keygen time= \x00") 13 k2 ⟨[], [], 0⟩ (by decide +kernel) (by decide)
  obtain ⟨b2, hb2, lb2⟩ := C85_send_trace pace2 (str "encaps time= \x00") 13 e2 b1 (by decide +kernel) (by decide)
  obtain ⟨b3, hb3, lb3⟩ := C85_send_trace pace2 (str "decaps time= \x00") 13 d2 b2 (by decide +kernel) (by decide)
  have hu1 : a4 = u1 := by
    rw [ha1, ok_then, ha2, ok_then, ha3, ok_then, ha4] at h1
    exact Except.ok.inj h1
  have hu2 : b3 = u2 := by
    rw [hb1, ok_then, hb2, ok_then, hb3] at h2
    exact Except.ok.inj h2
  have t10 : BitVec.toNat (10 : Byte) = 10 := rfl
  have t9 : BitVec.toNat (9 : Byte) = 9 := rfl
  have t13 : BitVec.toNat (13 : Byte) = 13 := rfl
  rw [← hu1, ← hu2, la4, la3, la2, la1, lb3, lb2, lb1]
  simp only [List.append_nil, List.nil_append, t10, t9, t13]
  unfold evaluate
  have n1 : ∀ b ∈ (str "RAM keygen\x00").take 10, b ≠ 10 ∧ b ≠ 48 := by decide +kernel
  have n2 : ∀ b ∈ (str "RAM encaps\x00").take 10, b ≠ 10 ∧ b ≠ 48 := by decide +kernel
  have n3 : ∀ b ∈ (str "RAM decaps\x00").take 10, b ≠ 10 ∧ b ≠ 48 := by decide +kernel
  have n4 : ∀ b ∈ (str "RAM total\x00").take 9, b ≠ 10 ∧ b ≠ 48 := by decide +kernel
  have n5 : ∀ b ∈ (str "keygen time= \x00").take 13, b ≠ 10 ∧ b ≠ 48 := by decide +kernel
  have n6 : ∀ b ∈ (str "encaps time= \x00").take 13, b ≠ 10 ∧ b ≠ 48 := by decide +kernel
  have n7 : ∀ b ∈ (str "decaps time= \x00").take 13, b ≠ 10 ∧ b ≠ 48 := by decide +kernel
  generalize (str "RAM keygen\x00").take 10 = x1 at *
  generalize (str "RAM encaps\x00").take 10 = x2 at *
  generalize (str "RAM decaps\x00").take 10 = x3 at *
  generalize (str "RAM total\x00").take 9 = x4 at *
  generalize (str "keygen time= \x00").take 13 = x5 at *
  generalize (str "encaps time= \x00").take 13 = x6 at *
  generalize (str "decaps time= \x00").take 13 = x7 at *
  have s1 := evalLine_eq "RAM for key_gen = " " bytes\n" x1 (x2 ++ hexLine e1.toNat ++ (x3 ++ hexLine d1.toNat ++ (x4 ++ hexLine t1.toNat))) k1.toNat n1 k1.isLt
  have s2 := evalLine_eq "RAM for encaps = " " bytes\n" x2 (x3 ++ hexLine d1.toNat ++ (x4 ++ hexLine t1.toNat)) e1.toNat n2 e1.isLt
  have s3 := evalLine_eq "RAM for decaps = " " bytes\n" x3 (x4 ++ hexLine t1.toNat) d1.toNat n3 d1.isLt
  have s4 := evalLine_eq "Total RAM for Saber# = " " bytes\n" x4 [] t1.toNat n4 t1.isLt
  have s5 := evalLine_eq "Time for key_gen = " " clock cycles\n" x5 (x6 ++ hexLine e2.toNat ++ (x7 ++ hexLine d2.toNat)) k2.toNat n5 k2.isLt
  have s6 := evalLine_eq "Time for encaps = " " clock cycles\n" x6 (x7 ++ hexLine d2.toNat) e2.toNat n6 e2.isLt
  have s7 := evalLine_eq "Time for decaps = " " clock cycles\n" x7 [] d2.toNat n7 d2.isLt
  simp only [List.append_assoc, List.append_nil] at s1 s2 s3 s4 s5 s6 s7 ⊢
  simp only [s1, s2, s3, s4, s5, s6, s7, List.nil_append, Option.bind_eq_bind, Option.bind_some, memoryReport, timeReport, List.append_assoc, Option.pure_def]

example : ∃ u', UART_SendTrace (fun _ => 0) (str "keygen time= \x00") 13 0x004A3F19 ⟨[], [], 0⟩ = .ok u' ∧
    u'.line ++ u'.fifo = str "keygen time= 0x004A3F19\r\n" := ⟨_, rfl, by decide +kernel⟩

/-! ## C86: the stack measurement -/

/-- C86: the reported number is the distance from `a` down to the lowest byte of the stack area that the call leaves with a value other than
42 (0 if there is none).  `lastWrite w x` is the value that the call leaves at `x`. -/
theorem C86_report (a : Nat) (w : Writes) (m : Mem) (ha : 0x2880 ≤ a) : ∃ r ≤ 0x2880, (measureStack a w m).1 = BitVec.ofNat 32 r ∧
    (∀ x v, lastWrite w x = some v → a - 0x2880 ≤ x → x < a → v ≠ 42 → a - x ≤ r) ∧
    (0 < r → ∃ v, lastWrite w (a - r) = some v ∧ v ≠ 42) := measureStack_spec a w m ha

/-- C86: the report does not depend on what was in memory before. -/
theorem C86_independent (a : Nat) (w : Writes) (m m' : Mem) (ha : 0x2880 ≤ a) : (measureStack a w m).1 = (measureStack a w m').1 := by
  obtain ⟨r, hr, e, h1, h2⟩ := C86_report a w m ha
  obtain ⟨r', hr', e', h1', h2'⟩ := C86_report a w m' ha
  rw [e, e']
  congr 1
  apply Nat.le_antisymm
  · rcases Nat.eq_zero_or_pos r with h | h
    · omega
    · obtain ⟨v, hv, hn⟩ := h2 h
      have := h1' _ v hv (by omega) (by omega) hn
      omega
  · rcases Nat.eq_zero_or_pos r' with h | h
    · omega
    · obtain ⟨v, hv, hn⟩ := h2' h
      have := h1 _ v hv (by omega) (by omega) hn
      omega

/-- C86: the report is never more than what the call uses: there is a write at the reported depth. -/
theorem C86_never_more (a : Nat) (w : Writes) (m : Mem) (ha : 0x2880 ≤ a) (h : (measureStack a w m).1 ≠ 0) :
    ∃ v, (a - (measureStack a w m).1.toNat, v) ∈ w ∧ (measureStack a w m).1.toNat ≤ 0x2880 := by
  obtain ⟨r, hr, e, _, h2⟩ := C86_report a w m ha
  have hn : (measureStack a w m).1.toNat = r := by rw [e]; simp; omega
  rw [hn]
  have : 0 < r := by
    rcases Nat.eq_zero_or_pos r with h0 | h0
    · rw [e, h0] at h; exact absurd rfl h
    · exact h0
  obtain ⟨v, hv, _⟩ := h2 this
  exact ⟨v, lastWrite_mem hv, hr⟩

/-- C86: the report is exactly the depth of the lowest write in the area when the value that is left there is not 42. -/
theorem C86_exact (a : Nat) (w : Writes) (m : Mem) (x : Nat) (v : Byte) (ha : 0x2880 ≤ a) (hx : a - 0x2880 ≤ x) (hxa : x < a)
    (hlow : ∀ p ∈ w, a - 0x2880 ≤ p.1 → x ≤ p.1) (hv : lastWrite w x = some v) (hne : v ≠ 42) :
    (measureStack a w m).1 = BitVec.ofNat 32 (a - x) := by
  obtain ⟨r, hr, e, h1, h2⟩ := C86_report a w m ha
  have := h1 x v hv hx hxa hne
  obtain ⟨v', hv', _⟩ := h2 (by omega)
  have := hlow _ (lastWrite_mem hv') (by simp; omega)
  simp at this
  rw [e]
  congr 1
  omega

/-- C86: otherwise it can be any smaller number: for all `r ≤ d` there is a call that uses `d` bytes and is reported with `r`. -/
theorem C86_underreport (a d r : Nat) (m : Mem) (ha : 0x2880 ≤ a) (hd : 0 < d) (hd' : d ≤ 0x2880) (hr : r ≤ d) :
    ∃ w : Writes, (∃ p ∈ w, p.1 = a - d) ∧ (∀ p ∈ w, a - d ≤ p.1 ∧ p.1 < a) ∧ (measureStack a w m).1 = BitVec.ofNat 32 r := by
  refine ⟨(a - d, 42) :: (if r = 0 then [] else [(a - r, 0)]), ⟨_, List.mem_cons_self, rfl⟩, ?_, ?_⟩
  · intro p hp
    split at hp
    · simp at hp; subst hp; simp; omega
    · simp at hp; rcases hp with rfl | rfl <;> simp <;> omega
  · obtain ⟨r', hr', e, h1, h2⟩ := C86_report a ((a - d, 42) :: (if r = 0 then [] else [(a - r, 0)])) m ha
    rw [e]
    congr 1
    by_cases h0 : r = 0
    · rw [if_pos h0] at h2
      by_contra hcon
      obtain ⟨v, hv, hn⟩ := h2 (by omega)
      have := lastWrite_mem hv
      simp at this
      exact hn this.2
    · rw [if_neg h0] at h1 h2
      have hlw : lastWrite [(a - d, 42), (a - r, 0)] (a - r) = some 0 := by simp [lastWrite]
      have h3 := h1 (a - r) 0 hlw (by omega) (by omega) (by decide)
      by_contra hcon
      obtain ⟨v, hv, hn⟩ := h2 (by omega)
      have := lastWrite_mem hv
      simp at this
      rcases this with h | h
      · exact hn h.2
      · omega

/-- C86: writes below the area are not seen. -/
theorem C86_below (a : Nat) (w : Writes) (m : Mem) (ha : 0x2880 ≤ a) (h : ∀ p ∈ w, p.1 < a - 0x2880 ∨ a ≤ p.1) : (measureStack a w m).1 = 0 := by
  by_contra hcon
  obtain ⟨v, hv, hr⟩ := C86_never_more a w m ha hcon
  have h0 : (measureStack a w m).1.toNat ≠ 0 := fun hc => hcon (BitVec.eq_of_toNat_eq hc)
  have := h _ hv
  simp at this
  omega

/-- The bytes of stack that a call uses: `d` is the depth of its lowest write, all writes are in the area or above it. -/
def usesStack (a : Nat) (w : Writes) (d : Nat) : Prop :=
  0 < d ∧ d ≤ 0x2880 ∧ (∀ p ∈ w, a - d ≤ p.1) ∧ ∃ v, lastWrite w (a - d) = some v ∧ v ≠ 42

/-- C86: what the host prints after the memory measurement, for every pace of the serial port, when each call leaves a value other than 42
at the lowest byte of its stack: the depths of the four measurements. -/
theorem C86_printed (pace1 pace2 : Nat → Nat) (a : Nat) (w1 w2 w3 w4 w5 w6 : Writes) (m : Mem) (k e d t : Nat) (ha : 0x2880 ≤ a)
    (h1 : usesStack a w1 k) (h2 : usesStack a w2 e) (h3 : usesStack a w3 d) (h4 : usesStack a (w4 ++ w5 ++ w6) t)
    (c0 c1 c2 c3 : Clocks) :
    ∃ u1 u2 x, mainMemsize pace1 a w1 w2 w3 w4 w5 w6 m = .ok u1 ∧ mainSpeed pace2 c0 c1 c2 c3 = .ok u2 ∧
      evaluate (u1.line ++ u1.fifo) (u2.line ++ u2.fifo) = some (memoryReport k e d t ++ x) := by
  have hex (w : Writes) (n : Nat) (m : Mem) (h : usesStack a w n) : (measureStack a w m).1 = BitVec.ofNat 32 n ∧ (BitVec.ofNat 32 n).toNat = n := by
    obtain ⟨p0, p1, p2, v, p3, p4⟩ := h
    refine ⟨?_, by simp; omega⟩
    rw [C86_exact a w m (a - n) v ha (by omega) (by omega) (fun p hp _ => p2 p hp) p3 p4]
    congr 1; omega
  have q1 := hex w1 k m h1
  have q2 := hex w2 e (measureStack a w1 m).2 h2
  have q3 := hex w3 d (measureStack a w2 (measureStack a w1 m).2).2 h3
  have q4 := hex (w4 ++ w5 ++ w6) t (measureStack a w3 (measureStack a w2 (measureStack a w1 m).2).2).2 h4
  obtain ⟨a1, ha1, _⟩ := C85_send_trace pace1 (str "RAM keygen\x00") 10 (BitVec.ofNat 32 k) ⟨[], [], 0⟩ (by decide +kernel) (by decide)
  obtain ⟨a2, ha2, _⟩ := C85_send_trace pace1 (str "RAM encaps\x00") 10 (BitVec.ofNat 32 e) a1 (by decide +kernel) (by decide)
  obtain ⟨a3, ha3, _⟩ := C85_send_trace pace1 (str "RAM decaps\x00") 10 (BitVec.ofNat 32 d) a2 (by decide +kernel) (by decide)
  obtain ⟨a4, ha4, _⟩ := C85_send_trace pace1 (str "RAM total\x00") 9 (BitVec.ofNat 32 t) a3 (by decide +kernel) (by decide)
  let s0 := setup_tick_count c0.serve c0.t c0.late ⟨false, 0, false, 0, 0⟩
  let r1 := measureTime c1.serve c1.t c1.late s0
  let r2 := measureTime c2.serve c2.t c2.late r1.2
  let r3 := measureTime c3.serve c3.t c3.late r2.2
  obtain ⟨b1, hb1, _⟩ := C85_send_trace pace2 (str "keygen time= \x00") 13 r1.1 ⟨[], [], 0⟩ (by decide +kernel) (by decide)
  obtain ⟨b2, hb2, _⟩ := C85_send_trace pace2 (str "encaps time= \x00") 13 r2.1 b1 (by decide +kernel) (by decide)
  obtain ⟨b3, hb3, _⟩ := C85_send_trace pace2 (str "decaps time= \x00") 13 r3.1 b2 (by decide +kernel) (by decide)
  have E := C85_evaluate pace1 pace2 (BitVec.ofNat 32 k) (BitVec.ofNat 32 e) (BitVec.ofNat 32 d) (BitVec.ofNat 32 t) r1.1 r2.1 r3.1 a4 b3
    (by
      rw [ha1, ok_then, ha2, ok_then, ha3, ok_then, ha4])
    (by
      rw [hb1, ok_then, hb2, ok_then, hb3])
  rw [q1.2, q2.2, q3.2, q4.2] at E
  refine ⟨a4, b3, _, ?_, ?_, E⟩
  · unfold mainMemsize
    simp only [q1.1, q2.1, q3.1, q4.1]
    rw [ha1, ok_then, ha2, ok_then, ha3, ok_then, ha4]
  · show (UART_SendTrace pace2 (str "keygen time= \x00") 13 r1.1 ⟨[], [], 0⟩ >>= fun u => UART_SendTrace pace2 (str "encaps time= \x00") 13 r2.1 u >>= fun u =>
      UART_SendTrace pace2 (str "decaps time= \x00") 13 r3.1 u) = _
    rw [hb1, ok_then, hb2, ok_then, hb3]

example : usesStack 0x20003F00 [(0x20003EFF, 7), (0x20001A00, 42), (0x20001A00, 3)] 0x2500 := by
  refine ⟨by decide, by decide, by decide, 3, by decide, by decide⟩

example (m : Mem) : (measureStack 0x20003F00 [(0x20003EFF, 7), (0x20001A00, 3), (0x20001A00, 42)] m).1 = 1 := by
  obtain ⟨r, hr, e, h1, h2⟩ := C86_report 0x20003F00 [(0x20003EFF, 7), (0x20001A00, 3), (0x20001A00, 42)] m (by decide)
  have h3 := h1 0x20003EFF 7 (by decide) (by decide) (by decide) (by decide)
  obtain ⟨v, hv, hn⟩ := h2 (by omega)
  have hm := lastWrite_mem hv
  simp at hm
  rw [e]
  rcases hm with h | h | h
  · have : r = 1 := by omega
    rw [this]; rfl
  · rw [h.1] at hv
    have : v = 42 := by
      have : lastWrite [(0x20003EFF, 7), (0x20001A00, 3), (0x20001A00, 42)] 536877568 = some 42 := by decide
      rw [this] at hv; exact (Option.some.inj hv).symm
    exact absurd this hn
  · exact absurd h.2 hn

/-! ## C87: the time measurement -/

/-- The timer is stopped, no interrupt waits, and the calibration was made with `t0` clocks. -/
def ready (t0 : Nat) (s : SysTick) : Prop :=
  s.enabled = false ∧ s.pending = false ∧ s.calibration_value = BitVec.ofNat 32 t0 - 1

/-- The state of the timer when it is stopped after `t` clocks. -/
def atStop (serve : Nat → Bool) (t : Nat) (s : SysTick) : SysTick := elapse serve t (start_tick_count s)

/-- Clocks that interrupts spent waiting for the handler, out of `t`. -/
def waiting (serve : Nat → Bool) (t : Nat) (s : SysTick) : Nat := waited serve (start_tick_count s) t

private theorem start_ready {t0 : Nat} {s : SysTick} (h : ready t0 s) : (start_tick_count s).enabled = true ∧ (start_tick_count s).cvr = 0 ∧
    (start_tick_count s).pending = false ∧ (start_tick_count s).timer_overflow = 0 ∧ (start_tick_count s).calibration_value = s.calibration_value := by
  obtain ⟨h1, h2, _⟩ := h
  simp [start_tick_count, h1, h2]

private theorem rvr : RVR = 16777215 := rfl

private theorem bv_time (n R w c t0 : Nat) (x : Nat) (hx : x = n * (R + 1) + w + (R + 1 - c)) (hc : c ≤ R) :
    BitVec.ofNat 32 R - BitVec.ofNat 32 c + BitVec.ofNat 32 n * BitVec.ofNat 32 R - (BitVec.ofNat 32 t0 - 1) =
      BitVec.ofNat 32 x - BitVec.ofNat 32 t0 - BitVec.ofNat 32 (n + w) := by
  obtain ⟨d, rfl⟩ := Nat.exists_eq_add_of_le hc
  have : x = n * (c + d) + n + w + d + 1 := by rw [hx, show c + d + 1 - c = d + 1 by omega]; ring
  rw [this]
  simp only [BitVec.ofNat_add, BitVec.ofNat_mul]
  generalize BitVec.ofNat 32 n = n
  generalize BitVec.ofNat 32 w = w
  generalize BitVec.ofNat 32 c = c
  generalize BitVec.ofNat 32 d = d
  generalize BitVec.ofNat 32 t0 = t
  show _ = n * (c + d) + n + w + d + 1 - t - (n + w)
  ring

/-- C87: what is reported after `t` clocks when the timer is stopped at a moment when no interrupt waits and the timer is not at 0: `t` minus
the clocks of the calibration, minus one for each of the `n` interrupts, minus the clocks that interrupts waited. -/
theorem C87_report (serve : Nat → Bool) (t t0 : Nat) (late : Bool) (s : SysTick) (hs : ready t0 s)
    (hp : (atStop serve t s).pending = false) (hc : (atStop serve t s).cvr ≠ 0) :
    ∃ n r, 1 ≤ r ∧ r < 2 ^ 24 ∧ t = n * 2 ^ 24 + waiting serve t s + r ∧
      (measureTime serve t late s).1 = BitVec.ofNat 32 t - BitVec.ofNat 32 t0 - BitVec.ofNat 32 (n + waiting serve t s) := by
  obtain ⟨s1, s2, s3, s4, s5⟩ := start_ready hs
  obtain ⟨e1, e2, e3, n, e4, e5, _⟩ := elapse_inv serve (start_tick_count s) s1 s2 s3 t
  have ht := e5 hp
  have hc' : (elapse serve t (start_tick_count s)).cvr ≠ 0 := hc
  rw [if_neg hc'] at ht
  have hR1 : RVR + 1 = 2 ^ 24 := rfl
  refine ⟨n, RVR + 1 - (elapse serve t (start_tick_count s)).cvr, by omega, by rw [← hR1]; omega, by rw [← hR1]; exact ht, ?_⟩
  show (end_tick_count late (elapse serve t (start_tick_count s))).1 = _
  have hp' : (elapse serve t (start_tick_count s)).pending = false := hp
  rw [end_eq _ _ (by rw [hp']; simp), e2, s5, e4, s4, hs.2.2]
  rw [show ∀ x : BitVec 32, 0 + x = x from BitVec.zero_add]
  exact bv_time n RVR (waiting serve t s) _ t0 t ht e3

private theorem short_run (serve : Nat → Bool) (t : Nat) (s : SysTick) (s1 : s.enabled = true) (s2 : s.cvr = 0) (s3 : s.pending = false) (h1 : 1 ≤ t)
    (ht : t < 2 ^ 24) : (elapse serve t s).pending = false ∧ (elapse serve t s).cvr + t = 2 ^ 24 ∧ waited serve s t = 0 ∧
      (elapse serve t s).timer_overflow = s.timer_overflow := by
  have hR1 : RVR + 1 = 2 ^ 24 := rfl
  have key (u : Nat) (hu : u ≤ t) : (elapse serve u s).pending = false := by
    obtain ⟨e1, e2, e3, n, e4, e5, e6⟩ := elapse_inv serve s s1 s2 s3 u
    by_contra hcon
    have hh := e6 (by simpa using hcon)
    obtain ⟨v, rfl⟩ : ∃ v, u = v + 1 := by
      cases u with
      | zero => exact absurd s3 hcon
      | succ v => exact ⟨v, rfl⟩
    rw [waited_succ, if_pos (by simpa using hcon)] at hh
    have hm : (n + 1) * (RVR + 1) = n * (RVR + 1) + (RVR + 1) := by ring
    omega
  obtain ⟨e1, e2, e3, n, e4, e5, e6⟩ := elapse_inv serve s s1 s2 s3 t
  have hp := key t (Nat.le_refl _)
  have hw : waited serve s t = 0 := by
    unfold waited
    rw [List.length_eq_zero_iff, List.filter_eq_nil_iff]
    intro i hi
    rw [List.mem_range] at hi
    simpa using key (i + 1) (by omega)
  have hh := e5 hp
  rw [hw] at hh
  have hn : n = 0 := by
    rcases Nat.eq_zero_or_pos n with hn | hn
    · exact hn
    · have : RVR + 1 ≤ n * (RVR + 1) := Nat.le_mul_of_pos_left _ hn
      omega
  subst hn
  refine ⟨hp, ?_, hw, by rw [e4]; exact BitVec.add_zero _⟩
  by_cases hc : (elapse serve t s).cvr = 0
  · rw [if_pos hc] at hh; omega
  · rw [if_neg hc] at hh; omega

/-- C87: fewer than 2^24 clocks are reported exactly, minus the clocks of the calibration, whatever the interrupts do; and the timer is
ready again. -/
theorem C87_exact (serve : Nat → Bool) (t t0 : Nat) (late : Bool) (s : SysTick) (hs : ready t0 s) (h1 : 1 ≤ t) (ht : t < 2 ^ 24) :
    (measureTime serve t late s).1 = BitVec.ofNat 32 t - BitVec.ofNat 32 t0 ∧ ready t0 (measureTime serve t late s).2 := by
  obtain ⟨s1, s2, s3, s4, s5⟩ := start_ready hs
  obtain ⟨hp, hc, hw, _⟩ := short_run serve t _ s1 s2 s3 h1 ht
  obtain ⟨n, r, hr1, _, hn, hr⟩ := C87_report serve t t0 late s hs hp (by show (elapse serve t (start_tick_count s)).cvr ≠ 0; omega)
  have hw : waiting serve t s = 0 := hw
  have h0 : n = 0 := by
    rcases Nat.eq_zero_or_pos n with h | h
    · exact h
    · have : 2 ^ 24 ≤ n * 2 ^ 24 := Nat.le_mul_of_pos_left _ h
      omega
  refine ⟨?_, ?_⟩
  · rw [hr, hw, h0]
    exact BitVec.sub_zero _
  · obtain ⟨e1, e2, _⟩ := elapse_inv serve (start_tick_count s) s1 s2 s3 t
    have hp' : (elapse serve t (start_tick_count s)).pending = false := hp
    have hE : measureTime serve t late s = end_tick_count late (elapse serve t (start_tick_count s)) := rfl
    rw [hE]
    unfold end_tick_count
    simp only [hp', Bool.and_false, Bool.false_eq_true, if_false]
    exact ⟨by simp [e1], rfl, by rw [← hs.2.2, ← s5]; exact e2⟩

/-- C87: `setup_tick_count` makes the timer ready. -/
theorem C87_setup (serve : Nat → Bool) (t0 : Nat) (late : Bool) (s : SysTick) (h : s.pending = false) (h1 : 1 ≤ t0) (ht : t0 < 2 ^ 24) :
    ready t0 (setup_tick_count serve t0 late s) := by
  have hs : ready 1 { s with calibration_value := 0, cvr := 0, enabled := false } := ⟨rfl, h, by show (0 : BitVec 32) = _; decide⟩
  obtain ⟨hr, h2, h3, _⟩ := C87_exact serve t0 1 late _ hs h1 ht
  exact ⟨h2, h3, hr⟩

/-- C87: what the host prints after the time measurement: for every pace of the serial port and whatever interrupts do, the clocks of
the three calls minus those of the calibration, as long as each takes fewer than 2^24 clocks. -/
theorem C87_printed (pace1 pace2 : Nat → Nat) (a : Nat) (w1 w2 w3 w4 w5 w6 : Writes) (m : Mem) (c0 c1 c2 c3 : Clocks)
    (h0 : 1 ≤ c0.t ∧ c0.t < 2 ^ 24) (h1 : c0.t ≤ c1.t ∧ c1.t < 2 ^ 24) (h2 : c0.t ≤ c2.t ∧ c2.t < 2 ^ 24) (h3 : c0.t ≤ c3.t ∧ c3.t < 2 ^ 24) :
    ∃ u1 u2 x, mainMemsize pace1 a w1 w2 w3 w4 w5 w6 m = .ok u1 ∧ mainSpeed pace2 c0 c1 c2 c3 = .ok u2 ∧
      evaluate (u1.line ++ u1.fifo) (u2.line ++ u2.fifo) = some (x ++ timeReport (c1.t - c0.t) (c2.t - c0.t) (c3.t - c0.t)) := by
  have hs := C87_setup c0.serve c0.t c0.late ⟨false, 0, false, 0, 0⟩ rfl h0.1 h0.2
  obtain ⟨r1, s1⟩ := C87_exact c1.serve c1.t c0.t c1.late _ hs (by omega) h1.2
  obtain ⟨r2, s2⟩ := C87_exact c2.serve c2.t c0.t c2.late _ s1 (by omega) h2.2
  obtain ⟨r3, s3⟩ := C87_exact c3.serve c3.t c0.t c3.late _ s2 (by omega) h3.2
  have hsub (t : Nat) (h : c0.t ≤ t ∧ t < 2 ^ 24) : BitVec.ofNat 32 t - BitVec.ofNat 32 c0.t = BitVec.ofNat 32 (t - c0.t) ∧
      (BitVec.ofNat 32 (t - c0.t)).toNat = t - c0.t := by
    refine ⟨?_, by simp; omega⟩
    apply BitVec.eq_of_toNat_eq
    simp only [BitVec.toNat_sub, BitVec.toNat_ofNat]
    omega
  rw [(hsub _ h1).1] at r1
  rw [(hsub _ h2).1] at r2
  rw [(hsub _ h3).1] at r3
  let q1 := measureStack a w1 m
  let q2 := measureStack a w2 q1.2
  let q3 := measureStack a w3 q2.2
  let q4 := measureStack a (w4 ++ w5 ++ w6) q3.2
  obtain ⟨a1, ha1, _⟩ := C85_send_trace pace1 (str "RAM keygen\x00") 10 q1.1 ⟨[], [], 0⟩ (by decide +kernel) (by decide)
  obtain ⟨a2, ha2, _⟩ := C85_send_trace pace1 (str "RAM encaps\x00") 10 q2.1 a1 (by decide +kernel) (by decide)
  obtain ⟨a3, ha3, _⟩ := C85_send_trace pace1 (str "RAM decaps\x00") 10 q3.1 a2 (by decide +kernel) (by decide)
  obtain ⟨a4, ha4, _⟩ := C85_send_trace pace1 (str "RAM total\x00") 9 q4.1 a3 (by decide +kernel) (by decide)
  obtain ⟨b1, hb1, _⟩ := C85_send_trace pace2 (str "keygen time= \x00") 13 (BitVec.ofNat 32 (c1.t - c0.t)) ⟨[], [], 0⟩ (by decide +kernel) (by decide)
  obtain ⟨b2, hb2, _⟩ := C85_send_trace pace2 (str "encaps time= \x00") 13 (BitVec.ofNat 32 (c2.t - c0.t)) b1 (by decide +kernel) (by decide)
  obtain ⟨b3, hb3, _⟩ := C85_send_trace pace2 (str "decaps time= \x00") 13 (BitVec.ofNat 32 (c3.t - c0.t)) b2 (by decide +kernel) (by decide)
  have E := C85_evaluate pace1 pace2 q1.1 q2.1 q3.1 q4.1 _ _ _ a4 b3
    (by rw [ha1, ok_then, ha2, ok_then, ha3, ok_then, ha4]) (by rw [hb1, ok_then, hb2, ok_then, hb3])
  rw [(hsub _ h1).2, (hsub _ h2).2, (hsub _ h3).2] at E
  refine ⟨a4, b3, _, ?_, ?_, E⟩
  · show (UART_SendTrace pace1 (str "RAM keygen\x00") 10 q1.1 ⟨[], [], 0⟩ >>= fun u => UART_SendTrace pace1 (str "RAM encaps\x00") 10 q2.1 u >>= fun u =>
      UART_SendTrace pace1 (str "RAM decaps\x00") 10 q3.1 u >>= fun u => UART_SendTrace pace1 (str "RAM total\x00") 9 q4.1 u) = _
    rw [ha1, ok_then, ha2, ok_then, ha3, ok_then, ha4]
  · unfold mainSpeed
    simp only [r1, r2, r3]
    rw [hb1, ok_then, hb2, ok_then, hb3]

/-- C87: from 2^24 clocks on, up to 2^32, the report is wrong whenever it is made at a moment when no interrupt waits and the timer is not at 0. -/
theorem C87_long_wrong (serve : Nat → Bool) (t t0 : Nat) (late : Bool) (s : SysTick) (hs : ready t0 s) (ht : 2 ^ 24 ≤ t) (ht' : t < 2 ^ 32)
    (hp : (atStop serve t s).pending = false) (hc : (atStop serve t s).cvr ≠ 0) :
    (measureTime serve t late s).1 ≠ BitVec.ofNat 32 t - BitVec.ofNat 32 t0 := by
  obtain ⟨n, r, h1, h2, h3, h4⟩ := C87_report serve t t0 late s hs hp hc
  rw [h4]
  generalize waiting serve t s = w at *
  generalize BitVec.ofNat 32 t - BitVec.ofNat 32 t0 = y
  intro hcon
  have := congrArg BitVec.toNat hcon
  simp only [BitVec.toNat_sub, BitVec.toNat_ofNat] at this
  have hy := y.isLt
  rw [Nat.mod_eq_of_lt (show n + w < 2 ^ 32 by omega)] at this
  omega

/-- C87: the moment of the stop matters.  If an interrupt waits when the timer is stopped and is served right after it, the report is too large by
2^24 clocks (less what long measurements lose). -/
theorem C87_race (serve : Nat → Bool) (t t0 : Nat) (s : SysTick) (hs : ready t0 s) (hp : (atStop serve t s).pending = true) :
    ∃ n, t + 1 = (n + 1) * 2 ^ 24 + waiting serve t s ∧ (measureTime serve t true s).1 =
      BitVec.ofNat 32 t - BitVec.ofNat 32 t0 + BitVec.ofNat 32 (2 ^ 24) - BitVec.ofNat 32 (n + waiting serve t s) := by
  obtain ⟨s1, s2, s3, s4, s5⟩ := start_ready hs
  obtain ⟨e1, e2, e3, n, e4, e5, e6⟩ := elapse_inv serve (start_tick_count s) s1 s2 s3 t
  have hh := e6 hp
  refine ⟨n, hh, ?_⟩
  have hE : measureTime serve t true s = end_tick_count true (elapse serve t (start_tick_count s)) := rfl
  have hp' : (elapse serve t (start_tick_count s)).pending = true := hp
  rw [hE]
  unfold end_tick_count
  simp only [hp', Bool.and_true, if_true, SysTick_Handler, overflowLoop_eq, e2, s5, e4, s4, hs.2.2]
  rw [show ∀ x : BitVec 32, 0 + x = x from BitVec.zero_add, BitVec.ofNat_toNat, BitVec.setWidth_eq]
  have hx : t = n * RVR + n + RVR + waited serve (start_tick_count s) t := by
    have hm : (n + 1) * (RVR + 1) = n * RVR + n + RVR + 1 := by ring
    omega
  show _ = BitVec.ofNat 32 t - BitVec.ofNat 32 t0 + BitVec.ofNat 32 (RVR + 1) - BitVec.ofNat 32 (n + waited serve (start_tick_count s) t)
  rw [congrArg (BitVec.ofNat 32) hx]
  generalize waited serve (start_tick_count s) t = w
  generalize RVR = R
  simp only [BitVec.ofNat_add, BitVec.ofNat_mul]
  generalize BitVec.ofNat 32 n = n
  generalize BitVec.ofNat 32 w = w
  generalize BitVec.ofNat 32 R = R
  generalize BitVec.ofNat 32 t0 = t
  show R - 0 + (n + 1) * R - (t - 1) = n * R + n + R + w - t + (R + 1) - (n + w)
  ring

private theorem race_state (serve : Nat → Bool) (T X : Nat) (hX : X = T + 1) (hT : X = 2 ^ 24) (s : SysTick) (s1 : s.enabled = true) (s2 : s.cvr = 0)
    (s3 : s.pending = false) (h : serve T = false) : (elapse serve X s).pending = true ∧ waited serve s X = 1 := by
  subst hX
  obtain ⟨hp, hc, hw, _⟩ := short_run serve T _ s1 s2 s3 (by omega) (by omega)
  have he := (elapse_inv serve s s1 s2 s3 T).1
  have hcv : (elapse serve T s).cvr = 1 := by omega
  have hpe : (elapse serve (T + 1) s).pending = true := by
    show (clock (serve T) (elapse serve T s)).pending = true
    rw [h]
    unfold clock
    rw [if_pos he]
    simp [hcv]
  exact ⟨hpe, by rw [waited_succ, hw, if_pos hpe]⟩

/-- C87: this happens after 2^24 clocks, unless the handler is that fast: then the report is 2^24 - 1 clocks too large. -/
theorem C87_race_reached (serve : Nat → Bool) (t0 : Nat) (s : SysTick) (hs : ready t0 s) (h : serve (2 ^ 24 - 1) = false) :
    (atStop serve (2 ^ 24) s).pending = true ∧
      (measureTime serve (2 ^ 24) true s).1 = BitVec.ofNat 32 (2 ^ 24) - BitVec.ofNat 32 t0 + BitVec.ofNat 32 (2 ^ 24 - 1) := by
  obtain ⟨s1, s2, s3, s4, s5⟩ := start_ready hs
  obtain ⟨hpa, hw1⟩ := race_state serve (2 ^ 24 - 1) (2 ^ 24) (by norm_num) rfl _ s1 s2 s3 h
  have hpa : (atStop serve (2 ^ 24) s).pending = true := hpa
  obtain ⟨n, h1, h2⟩ := C87_race serve (2 ^ 24) t0 s hs hpa
  have hw1 : waiting serve (2 ^ 24) s = 1 := hw1
  rw [hw1] at h1 h2
  have hn : n = 0 := by omega
  refine ⟨hpa, ?_⟩
  rw [h2, hn]
  generalize BitVec.ofNat 32 (2 ^ 24) - BitVec.ofNat 32 t0 = y
  rw [show BitVec.ofNat 32 (2 ^ 24 - 1) = BitVec.ofNat 32 (2 ^ 24) - BitVec.ofNat 32 (0 + 1) from by decide]
  ring

/-- C87: if it is not served before interrupts are disabled, it is counted in the next measurement, which is too large by 2^24 - 1 clocks. -/
theorem C87_next (serve : Nat → Bool) (t t0 : Nat) (late : Bool) (s : SysTick) (h1 : 1 ≤ t) (ht : t < 2 ^ 24)
    (he : s.enabled = false) (hp : s.pending = true) (hc : s.calibration_value = BitVec.ofNat 32 t0 - 1) :
    (measureTime serve t late s).1 = BitVec.ofNat 32 t - BitVec.ofNat 32 t0 + BitVec.ofNat 32 (2 ^ 24 - 1) := by
  have s1 : (start_tick_count s).enabled = true := by simp [start_tick_count, he, hp, SysTick_Handler]
  have s2 : (start_tick_count s).cvr = 0 := by simp [start_tick_count, hp, SysTick_Handler]
  have s3 : (start_tick_count s).pending = false := by simp [start_tick_count, hp, SysTick_Handler]
  have s4 : (start_tick_count s).timer_overflow = 1 := by simp [start_tick_count, hp, SysTick_Handler]
  have s5 : (start_tick_count s).calibration_value = s.calibration_value := by simp [start_tick_count, hp, SysTick_Handler]
  obtain ⟨hq, hcv, hw, ho⟩ := short_run serve t _ s1 s2 s3 h1 ht
  have e2 := (elapse_inv serve (start_tick_count s) s1 s2 s3 t).2.1
  show (end_tick_count late (elapse serve t (start_tick_count s))).1 = _
  rw [end_eq _ _ (by rw [hq]; simp), e2, s5, hc, ho, s4]
  have hR : RVR = (elapse serve t (start_tick_count s)).cvr + t - 1 := by rw [hcv]; rfl
  obtain ⟨u, rfl⟩ : ∃ u, t = u + 1 := ⟨t - 1, by omega⟩
  show _ = BitVec.ofNat 32 (u + 1) - BitVec.ofNat 32 t0 + BitVec.ofNat 32 RVR
  rw [hR]
  generalize (elapse serve (u + 1) (start_tick_count s)).cvr = c
  rw [show c + (u + 1) - 1 = c + u by omega]
  simp only [BitVec.ofNat_add]
  generalize BitVec.ofNat 32 u = u
  generalize BitVec.ofNat 32 c = c
  generalize BitVec.ofNat 32 t0 = t
  show c + u - c + 1 * (c + u) - (t - 1) = u + 1 - t + (c + u)
  ring

/-- C87: the state after such a stop is the one of `C87_next`. -/
theorem C87_next_reached (serve : Nat → Bool) (t t0 : Nat) (s : SysTick) (hs : ready t0 s) (hp : (atStop serve t s).pending = true) :
    (measureTime serve t false s).2.enabled = false ∧ (measureTime serve t false s).2.pending = true ∧
      (measureTime serve t false s).2.calibration_value = BitVec.ofNat 32 t0 - 1 := by
  obtain ⟨s1, s2, s3, s4, s5⟩ := start_ready hs
  obtain ⟨e1, e2, _⟩ := elapse_inv serve (start_tick_count s) s1 s2 s3 t
  have hp' : (elapse serve t (start_tick_count s)).pending = true := hp
  have hE : measureTime serve t false s = end_tick_count false (elapse serve t (start_tick_count s)) := rfl
  rw [hE]
  unfold end_tick_count
  simp only [Bool.false_and, Bool.false_eq_true, if_false]
  exact ⟨by simp [e1], hp', by rw [e2, s5, hs.2.2]⟩

/-- C87: `start_tick_count` switches the timer, so that two calls in a row stop it: what is reported then does not depend on the time. -/
theorem C87_double_start (serve serve' : Nat → Bool) (u u' t0 : Nat) (late : Bool) (s : SysTick) (hs : ready t0 s) (hu : u < 2 ^ 24) :
    (end_tick_count late (elapse serve' u' (start_tick_count (elapse serve u (start_tick_count s))))).1 =
      BitVec.ofNat 32 (2 ^ 24) - BitVec.ofNat 32 t0 := by
  obtain ⟨s1, s2, s3, s4, s5⟩ := start_ready hs
  obtain ⟨e1, e2, _⟩ := elapse_inv serve (start_tick_count s) s1 s2 s3 u
  have hp : (elapse serve u (start_tick_count s)).pending = false := by
    rcases Nat.eq_zero_or_pos u with h | h
    · subst h; exact s3
    · exact (short_run serve u _ s1 s2 s3 h hu).1
  generalize elapse serve u (start_tick_count s) = x at *
  have hstop (k : Nat) (y : SysTick) (hy : y.enabled = false) : elapse serve' k y = y := by
    induction k with
    | zero => rfl
    | succ k ih => show clock _ (elapse serve' k y) = y; rw [ih]; simp [clock, hy]
  have hx : (start_tick_count x).enabled = false := by simp [start_tick_count, hp, e1]
  rw [hstop _ _ hx, end_eq _ _ (by simp [start_tick_count, hp])]
  have h1 : (start_tick_count x).cvr = 0 := by simp [start_tick_count, hp]
  have h2 : (start_tick_count x).timer_overflow = 0 := by simp [start_tick_count, hp]
  have h3 : (start_tick_count x).calibration_value = BitVec.ofNat 32 t0 - 1 := by
    rw [← hs.2.2, ← s5, ← e2]; simp [start_tick_count, hp]
  rw [h1, h2, h3]
  show _ = BitVec.ofNat 32 (RVR + 1) - BitVec.ofNat 32 t0
  rw [BitVec.ofNat_add]
  generalize BitVec.ofNat 32 RVR = R
  generalize BitVec.ofNat 32 t0 = t
  show R - 0 + 0 * R - (t - 1) = R + 1 - t
  ring

/-- The calibration of the example takes 7 clocks, and an operation of 5000000 clocks is reported with 4999993. -/
example : (measureTime (fun _ => true) 5000000 false (setup_tick_count (fun _ => false) 7 true ⟨false, 0, false, 0, 0⟩)).1 = 4999993 :=
  (C87_exact (fun _ => true) 5000000 7 false _ (C87_setup (fun _ => false) 7 true ⟨false, 0, false, 0, 0⟩ rfl (by decide) (by decide)) (by decide) (by decide)).1

end Saber.Props
