import Verif.Model.X4.Fips202
import Verif.Proof.X4.Keccak
import Verif.Proof.Fips202
/-!
# Proof: each lane of the four-fold sponge functions is the function of FIPS 202

A four-fold computation simulates four computations of the reference code.
-/
namespace Saber.X4
open Spec Keccak

/-- If the four computations `m l` have no undefined behaviour, then `m4` has none, and its result gives the four results. -/
def Sim {α β : Type} (m4 : CM α) (m : Fin 4 → CM β) (π : α → Fin 4 → β) : Prop :=
  ∀ b : Fin 4 → β, (∀ l, m l = .ok (b l)) → ∃ a, m4 = .ok a ∧ π a = b

theorem bind_eq_ok {α β : Type} {m : CM α} {f : α → CM β} {c : β} (h : (m >>= f) = .ok c) : ∃ b, m = .ok b ∧ f b = .ok c := by
  cases m with
  | error e => cases h
  | ok b => exact ⟨b, rfl, h⟩

theorem Sim.bind {α α' β β' : Type} {m4 : CM α} {m : Fin 4 → CM β} {π : α → Fin 4 → β} {f4 : α → CM α'} {f : Fin 4 → β → CM β'}
    {π' : α' → Fin 4 → β'} (h : Sim m4 m π) (hf : ∀ a, m4 = .ok a → (∀ l, m l = .ok (π a l)) → Sim (f4 a) (fun l => f l (π a l)) π') :
    Sim (m4 >>= f4) (fun l => m l >>= f l) π' := by
  intro c hc
  choose b hb hb' using fun l => bind_eq_ok (hc l)
  obtain ⟨a, ha, rfl⟩ := h b hb
  rw [ha, ok_bind]
  exact hf a ha hb c hb'

theorem Sim.pure {α β : Type} {a : α} {b : Fin 4 → β} {π : α → Fin 4 → β} (h : π a = b) : Sim (.ok a) (fun l => .ok (b l)) π := by
  intro c hc
  refine ⟨a, rfl, ?_⟩
  rw [h]; funext l
  exact Except.ok.inj (hc l)

theorem Sim.loop {σ τ : Type} (π : σ → Fin 4 → τ) {n : Nat} {s : σ} {body4 : Nat → σ → CM σ} {body : Fin 4 → Nat → τ → CM τ}
    (hb : ∀ i < n, ∀ s, Sim (body4 i s) (fun l => body l i (π s l)) π) :
    Sim (loop n s body4) (fun l => Saber.loop n (π s l) (body l)) π := by
  induction n with
  | zero => exact Sim.pure rfl
  | succ n ih =>
    exact Sim.bind (ih fun i hi s => hb i (by omega) s) fun a _ _ => hb n (by omega) a

theorem setFam_same {α : Type} (x : Fam α) (l : Fin 4) (v : α) : setFam x l v l = v := by simp [setFam]

theorem setFam_ne {α : Type} (x : Fam α) {l k : Fin 4} (h : k ≠ l) (v : α) : setFam x l v k = x k := by simp [setFam, h]

theorem Sim.four {σ τ : Type} (π : σ → Fin 4 → τ) {s : σ} {f : Fin 4 → σ → CM σ} {g : Fin 4 → τ → CM τ}
    (hf : ∀ l s b, g l (π s l) = .ok b → ∃ s', f l s = .ok s' ∧ π s' = setFam (π s) l b) :
    Sim (four s f) (fun l => g l (π s l)) π := by
  intro b hb
  obtain ⟨s0, e0, h0⟩ := hf 0 s _ (hb 0)
  obtain ⟨s1, e1, h1⟩ := hf 1 s0 (b 1) (by rw [h0, setFam_ne _ (by decide)]; exact hb 1)
  obtain ⟨s2, e2, h2⟩ := hf 2 s1 (b 2) (by rw [h1, setFam_ne _ (by decide), h0, setFam_ne _ (by decide)]; exact hb 2)
  obtain ⟨s3, e3, h3⟩ := hf 3 s2 (b 3) (by
    rw [h2, setFam_ne _ (by decide), h1, setFam_ne _ (by decide), h0, setFam_ne _ (by decide)]; exact hb 3)
  refine ⟨s3, ?_, ?_⟩
  · rw [X4.four, e0, ok_bind, e1, ok_bind, e2, ok_bind, e3]
  · rw [h3, h2, h1, h0]
    funext l
    fin_cases l <;> rfl

/-- Four statements on four arrays. -/
theorem Sim.fam {τ : Type} {t : Fam τ} {g : Fin 4 → τ → CM τ} :
    Sim (X4.four t fun l t => do let a ← g l (t l); Pure.pure (setFam t l a)) (fun l => g l (t l)) id :=
  Sim.four id fun l s b h => ⟨setFam s l b, by rw [show g l (s l) = .ok b from h, ok_bind]; rfl, rfl⟩

/-! ### The state -/

/-- The four states. -/
def lanes (s : List V256) : Fam (List (BitVec 64)) := fun l => lane l s

theorem ofNat_add (i : Nat) (l : Fin 4) : Fin.ofNat 4 (4 * i + l) = l := by
  apply Fin.ext; simp [Fin.ofNat]

theorem rd_lane (s : List V256) (i : Nat) (l : Fin 4) : rd (lane l s) i = ssRd s (4 * i + l) := by
  unfold ssRd
  rw [show (4 * i + l.val) / 4 = i by omega, ofNat_add]
  by_cases h : i < s.length
  · rw [rd_ok 0 (by simpa using h), rd_ok (fun _ => 0) h, ok_bind, getD_lane]; rfl
  · rw [rd_oob (by simpa using h), rd_oob (by omega)]; rfl

theorem wr_lane (s : List V256) (i : Nat) (l : Fin 4) (x : BitVec 64) (b : List (BitVec 64)) (h : wr (lane l s) i x = .ok b) :
    ∃ s', ssWr s (4 * i + l) x = .ok s' ∧ lanes s' = setFam (lanes s) l b := by
  unfold ssWr
  rw [show (4 * i + l.val) / 4 = i by omega, ofNat_add]
  by_cases hi : i < s.length
  · rw [wr_ok (by simpa using hi)] at h
    rw [rd_ok (fun _ => 0) hi, ok_bind, wr_ok hi]
    refine ⟨_, rfl, ?_⟩
    obtain rfl := (Except.ok.inj h).symm
    funext k
    unfold lanes lane
    rw [List.map_set]
    by_cases hk : k = l
    · subst hk; rw [setFam_same, setFam_same]
    · rw [setFam_ne _ hk, setFam_ne _ hk]
      apply List.ext_getElem (by simp)
      intro j h1 h2
      rw [List.getElem_set]
      split
      · next h => subst h; simp [List.getD_eq_getElem?_getD, hi]
      · rfl
  · rw [wr_oob (by simpa using hi)] at h; cases h

theorem xorBlock_sim (s : List V256) (r : Nat) (m : Fam (List Byte)) (mOff : Fam Nat) :
    Sim (xorBlock4x s r m mOff) (fun l => xorBlock (lane l s) r (m l) (mOff l)) lanes := by
  unfold xorBlock4x xorBlock
  refine Sim.loop lanes (body := fun l i s => do
    let v ← load64 (m l) (mOff l + 8 * i)
    let x ← rd s i
    wr s i (x ^^^ v)) fun i _ s => ?_
  refine Sim.four lanes (g := fun l s => do
    let v ← load64 (m l) (mOff l + 8 * i)
    let x ← rd s i
    wr s i (x ^^^ v)) fun l s b h => ?_
  obtain ⟨v, hv, h⟩ := bind_eq_ok h
  obtain ⟨x, hx, h⟩ := bind_eq_ok h
  rw [hv, ok_bind, ← rd_lane, show rd (lane l s) i = .ok x from hx, ok_bind]
  exact wr_lane s i l _ _ h

theorem permute_sim (s : List V256) (hs : s.length = 25) :
    Sim (KeccakP1600times4_PermuteAll_24rounds s) (fun l => KeccakF1600_StatePermute (lane l s)) lanes := by
  intro b hb
  obtain ⟨s', e, -, h⟩ := permute_ok s hs
  refine ⟨s', e, ?_⟩
  funext l
  exact Except.ok.inj ((h l).symm.trans (hb l))

theorem loop_length {α : Type} {n : Nat} {s s' : List α} {body : Nat → List α → CM (List α)}
    (hb : ∀ i s s', body i s = .ok s' → s'.length = s.length) (h : loop n s body = .ok s') : s'.length = s.length := by
  induction n generalizing s' with
  | zero => rw [← Except.ok.inj h]
  | succ n ih =>
    obtain ⟨t, ht, h⟩ := bind_eq_ok h
    rw [hb _ _ _ h, ih ht]

theorem wr_length {α : Type} {s s' : List α} {i : Nat} {v : α} (h : wr s i v = .ok s') : s'.length = s.length := by
  unfold wr at h
  split at h
  · rw [← Except.ok.inj h, List.length_set]
  · cases h

theorem xorBlock_length {s s' : List (BitVec 64)} {r : Nat} {m : List Byte} {mOff : Nat} (h : xorBlock s r m mOff = .ok s') :
    s'.length = s.length := by
  refine loop_length (fun i s s' h => ?_) h
  obtain ⟨v, hv, h⟩ := bind_eq_ok h
  obtain ⟨x, hx, h⟩ := bind_eq_ok h
  exact wr_length h

theorem length_lanes {s : List V256} {n : Nat} (h : (lanes s 0).length = n) : s.length = n := by
  simpa [lanes] using h

theorem absorbLoop_sim (r : Nat) (m : Fam (List Byte)) : ∀ (mlen : Nat) (s : List V256) (mOff : Fam Nat), s.length = 25 →
    Sim (absorbLoop4x s r m mOff mlen) (fun l => absorbLoop (lane l s) r (m l) (mOff l) mlen)
      (fun a l => (lane l a.1, a.2.1 l, a.2.2)) := by
  intro mlen
  induction mlen using Nat.strong_induction_on with
  | _ mlen ih =>
    intro s mOff hs
    rw [absorbLoop4x]
    simp only [show ∀ l, absorbLoop (lane l s) r (m l) (mOff l) mlen = if r ≤ mlen ∧ 0 < r then (do
      let s ← xorBlock (lane l s) r (m l) (mOff l)
      let s ← KeccakF1600_StatePermute s
      absorbLoop s r (m l) (mOff l + r) (mlen - r)) else .ok (lane l s, mOff l, mlen) from fun l => by
        rw [absorbLoop]; rfl]
    by_cases h : r ≤ mlen ∧ 0 < r
    · simp only [dif_pos h, if_pos h]
      refine Sim.bind (xorBlock_sim s r m mOff) fun s1 _ h1 => ?_
      have hs1 : s1.length = 25 := length_lanes (by rw [xorBlock_length (h1 0), length_lane, hs])
      refine Sim.bind (permute_sim s1 hs1) fun s2 e2 h2 => ?_
      obtain ⟨s2', e2', hs2, -⟩ := permute_ok s1 hs1
      rw [e2'] at e2
      obtain rfl := Except.ok.inj e2
      exact ih (mlen - r) (by omega) s2' (fun l => mOff l + r) hs2
    · simp only [dif_neg h, if_neg h]
      exact Sim.pure rfl

theorem absorb_sim (s : List V256) (hs : s.length = 25) (r : Nat) (m : Fam (List Byte)) (mOff : Fam Nat) (mlen : Nat) (p : Byte) :
    Sim (keccak_absorb4x s r m mOff mlen p)
      (fun l => keccak_absorbT (uninit 8 (300 + l) 200) (lane l s) r (m l) (mOff l) mlen p) lanes := by
  unfold keccak_absorb4x keccak_absorbT
  refine Sim.bind (absorbLoop_sim r m mlen s mOff hs) fun ⟨s1, mOff1, mlen1⟩ _ _ => ?_
  refine Sim.bind (Sim.loop id fun i _ t => Sim.fam (g := fun _ t => wr t i 0)) fun t1 _ _ => ?_
  refine Sim.bind (Sim.loop id (body := fun l i t => do
    let v ← rd (m l) (mOff1 l + i)
    wr t i v) fun i _ t => ?_) fun t2 _ _ => ?_
  · have := Sim.fam (t := t) (g := fun l t => do
      let v ← rd (m l) (mOff1 l + i)
      wr t i v)
    simp only [bind_assoc] at this
    exact this
  refine Sim.bind (Sim.fam (g := fun _ t => wr t mlen1 p)) fun t3 _ _ => ?_
  have h4 := Sim.fam (t := t3) (g := fun l t => do
    let v ← rd t (r - 1)
    wr t (r - 1) (v ||| 128))
  simp only [bind_assoc] at h4
  have := Sim.bind h4 (f := fun l t => xorBlock (lane l s1) r t 0) (f4 := fun t => xorBlock4x s1 r t (fun _ => 0)) (π' := lanes)
    fun t4 _ _ => xorBlock_sim s1 r t4 (fun _ => 0)
  simp only [bind_assoc] at this
  exact this

/-- The state and the offsets in a squeezing loop. -/
def sqState (a : Fam (List Byte) × Fam Nat × List V256) (l : Fin 4) : List Byte × Nat × List (BitVec 64) := (a.1 l, a.2.1 l, lane l a.2.2)

theorem squeezeblocks_sim (h : Fam (List Byte)) (hOff : Fam Nat) (n : Nat) (s : List V256) (hs : s.length = 25) (r : Nat) :
    Sim (keccak_squeezeblocks4x h hOff n s r) (fun l => keccak_squeezeblocks (h l) (hOff l) n (lane l s) r)
      (fun a l => (a.1 l, lane l a.2)) := by
  unfold keccak_squeezeblocks4x keccak_squeezeblocks
  have key : Sim (loop n (h, hOff, s) fun _ (x : Fam (List Byte) × Fam Nat × List V256) => do
      let s ← KeccakP1600times4_PermuteAll_24rounds x.2.2
      let h ← loop (r >>> 3) x.1 fun i h => four h fun l h => do
        let v ← ssRd s (4 * i + l)
        let a ← store64 (h l) (x.2.1 l + 8 * i) v
        pure (setFam h l a)
      pure (h, (fun l => x.2.1 l + r), s))
    (fun l => loop n (h l, hOff l, lane l s) fun _ (x : List Byte × Nat × List (BitVec 64)) => do
      let s ← KeccakF1600_StatePermute x.2.2
      let h ← loop (r >>> 3) x.1 fun i h => do
        let v ← rd s i
        store64 h (x.2.1 + 8 * i) v
      pure (h, x.2.1 + r, s)) sqState := by
    suffices H : ∀ b, (∀ l, (loop n (h l, hOff l, lane l s) fun _ (x : List Byte × Nat × List (BitVec 64)) => do
        let s ← KeccakF1600_StatePermute x.2.2
        let h ← loop (r >>> 3) x.1 fun i h => do
          let v ← rd s i
          store64 h (x.2.1 + 8 * i) v
        pure (h, x.2.1 + r, s)) = .ok (b l)) → ∃ a, (loop n (h, hOff, s) fun _ (x : Fam (List Byte) × Fam Nat × List V256) => do
        let s ← KeccakP1600times4_PermuteAll_24rounds x.2.2
        let h ← loop (r >>> 3) x.1 fun i h => four h fun l h => do
          let v ← ssRd s (4 * i + l)
          let a ← store64 (h l) (x.2.1 l + 8 * i) v
          pure (setFam h l a)
        pure (h, (fun l => x.2.1 l + r), s)) = .ok a ∧ sqState a = b ∧ a.2.2.length = 25 by
      intro b hb
      obtain ⟨a, h1, h2, -⟩ := H b hb
      exact ⟨a, h1, h2⟩
    induction n with
    | zero =>
      intro b hb
      refine ⟨_, rfl, ?_, hs⟩
      funext l
      exact Except.ok.inj (hb l)
    | succ n ih =>
      intro c hc
      choose b hb hb' using fun l => bind_eq_ok (hc l)
      obtain ⟨a, ha, rfl, hl⟩ := ih b hb
      rw [loop, ha, ok_bind]
      obtain ⟨s', e, hs', hl'⟩ := permute_ok a.2.2 hl
      have hin : Sim (loop (r >>> 3) a.1 fun i h => four h fun l h => do
          let v ← ssRd s' (4 * i + l)
          let b ← store64 (h l) (a.2.1 l + 8 * i) v
          pure (setFam h l b)) (fun l => loop (r >>> 3) (a.1 l) fun i h => do
            let v ← rd (lane l s') i
            store64 h (a.2.1 l + 8 * i) v) id := by
        refine Sim.loop id fun i _ t => ?_
        have := Sim.fam (t := t) (g := fun l h => do
          let v ← rd (lane l s') i
          store64 h (a.2.1 l + 8 * i) v)
        simp only [bind_assoc, rd_lane] at this ⊢
        exact this
      have hb2 : ∀ l, ∃ d, (loop (r >>> 3) (a.1 l) fun i h => do
            let v ← rd (lane l s') i
            store64 h (a.2.1 l + 8 * i) v) = .ok d ∧ c l = (d, a.2.1 l + r, lane l s') := by
        intro l
        have h1 := hb' l
        simp only [sqState, hl' l, ok_bind] at h1
        obtain ⟨d, hd, h1⟩ := bind_eq_ok h1
        exact ⟨d, hd, (Except.ok.inj h1).symm⟩
      choose d hd hd' using hb2
      obtain ⟨h', eh, rfl⟩ := hin d hd
      refine ⟨(h', (fun l => a.2.1 l + r), s'), ?_, ?_, hs'⟩
      · rw [e, ok_bind]
        rw [eh]; rfl
      · funext l
        rw [hd' l]; rfl
  refine Sim.bind key (f := fun _ (x : List Byte × Nat × List (BitVec 64)) => Except.ok (x.1, x.2.2)) fun a _ _ => ?_
  exact Sim.pure rfl

/-! ### The functions -/

theorem clear_ok : Ok clearState4x fun s => s.length = 25 ∧ ∀ l, bitsOfLanes (lane l s) = List.replicate 1600 false := by
  unfold clearState4x
  refine (loop_inv (fun i (s : List V256) => s.length = 25 ∧ ∀ j < i, ∀ l, s.getD j (fun _ => 0) l = 0) ⟨by simp, by simp⟩ ?_).mono ?_
  · rintro i s hi ⟨hl, hz⟩
    rw [rd_ok (fun _ => 0) (by omega), ok_bind, wr_ok (by omega)]
    refine Ok.pure ⟨by simp [hl], fun j hj l => ?_⟩
    rw [getD_set]
    by_cases h : i = j
    · rw [if_pos ⟨h, by omega⟩]; simp [XOR256]
    · rw [if_neg (by tauto)]; exact hz j (by omega) l
  · rintro s ⟨hl, hz⟩
    refine ⟨hl, fun l => ?_⟩
    apply ext_getD false (by rw [length_bitsOfLanes, List.length_replicate])
    intro i hi
    rw [length_bitsOfLanes] at hi
    rw [getD_bitsOfLanes _ _ hi, getD_lane, hz _ (by omega), List.getD_replicate _ hi]
    simp

theorem copyOut_ok (n : Nat) (out : Fam (List Byte)) (outOff : Fam Nat) (t : Fam (List Byte)) (ht : ∀ l, n ≤ (t l).length)
    (ho : ∀ l, outOff l + n ≤ (out l).length) :
    copyOut n out outOff t = .ok fun l => writeAt (out l) (outOff l) ((t l).take n) := by
  have key : Sim (copyOut n out outOff t) (fun l => loop n (out l) fun i dst => do
      let v ← rd (t l) i
      wr dst (outOff l + i) v) id := by
    refine Sim.loop id (body := fun l i dst => do
      let v ← rd (t l) i
      wr dst (outOff l + i) v) fun i _ o => ?_
    have := Sim.fam (t := o) (g := fun l dst => do
      let v ← rd (t l) i
      wr dst (outOff l + i) v)
    simp only [bind_assoc] at this
    exact this
  obtain ⟨a, ha, h⟩ := key _ fun l => copyLoop_ok _ _ _ _ (ht l) (ho l)
  rw [ha]; congr 1

theorem absorb4x_ok (s : List V256) (hs : s.length = 25) (hs0 : ∀ l, bitsOfLanes (lane l s) = List.replicate 1600 false)
    (r : Nat) (hr8 : r % 8 = 0) (hr0 : 0 < r) (hr : r < 200)
    (m : Fam (List Byte)) (mOff : Fam Nat) (mlen : Nat) (hm : ∀ l, mOff l + mlen ≤ (m l).length) (p : Byte) (suf : List Bool) (hp : SepByte p suf) :
    Ok (keccak_absorb4x s r m mOff mlen p) fun s' => s'.length = 25 ∧
      ∀ l, keccakF (bitsOfLanes (lane l s')) = absorb (8 * r) (bitsOfBytes (((m l).drop (mOff l)).take mlen) ++ suf) := by
  choose b hb hb1 hb2 using fun l : Fin 4 => keccak_absorbT_ok (uninit 8 (300 + l) 200) (by simp) (lane l s) (by simpa using hs) (hs0 l) r hr8 hr0 hr
    (m l) (mOff l) mlen (hm l) p suf hp
  obtain ⟨a, ha, h⟩ := absorb_sim s hs r m mOff mlen p b hb
  refine ⟨a, ha, length_lanes (by rw [h]; exact hb1 0), fun l => ?_⟩
  have : lane l a = b l := congrFun h l
  rw [this, hb2]

theorem squeezeblocks4x_ok (h : Fam (List Byte)) (hOff : Fam Nat) (n : Nat) (s : List V256) (r : Nat) (hr8 : r % 8 = 0) (hr : r ≤ 200)
    (hs : s.length = 25) (hh : ∀ l, hOff l + r * n ≤ (h l).length) :
    Ok (keccak_squeezeblocks4x h hOff n s r) fun o =>
      (∀ l, o.1 l = writeAt (h l) (hOff l) (sqBytes r (keccakF (bitsOfLanes (lane l s))) n)) ∧ o.2.length = 25 ∧
      ∀ l, bitsOfLanes (lane l o.2) = keccakF^[n] (bitsOfLanes (lane l s)) := by
  choose b hb hb1 hb2 hb3 using fun l => squeezeblocks_ok (h l) (hOff l) n (lane l s) r hr8 hr (by simpa using hs) (hh l)
  obtain ⟨a, ha, hab⟩ := squeezeblocks_sim h hOff n s hs r b hb
  have e : ∀ l, (a.1 l, lane l a.2) = b l := fun l => congrFun hab l
  refine ⟨a, ha, fun l => ?_, ?_, fun l => ?_⟩
  · rw [← hb1 l, ← e l]
  · have := hb2 0; rw [← e 0] at this; simpa using this
  · rw [← hb3 l, ← e l]

theorem sha3_256x4_ok (out : Fam (List Byte)) (outOff : Fam Nat) (input : Fam (List Byte)) (inOff : Fam Nat) (inlen : Nat)
    (ho : ∀ l, outOff l + 32 ≤ (out l).length) (hi : ∀ l, inOff l + inlen ≤ (input l).length) :
    sha3_256x4 out outOff input inOff inlen =
      .ok fun l => writeAt (out l) (outOff l) (Keccak.sha3_256 (((input l).drop (inOff l)).take inlen)) := by
  unfold sha3_256x4
  obtain ⟨s0, e0, hs0, hz⟩ := clear_ok
  rw [e0, ok_bind]
  obtain ⟨s1, e1, hs1, h1⟩ := absorb4x_ok s0 hs0 hz 136 (by omega) (by omega) (by omega) input inOff inlen hi _ _ sepByte_sha3
  rw [e1, ok_bind]
  obtain ⟨⟨t, s2⟩, e2, h2, -, -⟩ := squeezeblocks4x_ok (fun l => uninit 8 (340 + l) SHA3_256_RATE) (fun _ => 0) 1 s1 136 (by omega) (by omega) hs1
    (by simp)
  rw [e2, ok_bind]
  have hl := fun l => length_sqBytes 136 (by omega) (keccakF (bitsOfLanes (lane l s1))) (length_keccakF _) 1
  have h3 : ∀ l, t l = sqBytes 136 (keccakF (bitsOfLanes (lane l s1))) 1 := fun l => by
    rw [show t l = _ from h2 l, writeAt_full _ _ (by rw [hl]; simp)]
  simp only
  rw [copyOut_ok _ _ _ _ (fun l => by rw [h3, hl]; omega) ho]
  congr 1; funext l
  rw [h3, h1, Keccak.sha3_256,
    show (256 : Nat) = 8 * 32 from rfl, show 1600 - 512 = 8 * 136 from rfl, sponge_bytes 136 (by omega) (by omega) _ 32 1 (by omega)]

theorem sha3_512x4_ok (out : Fam (List Byte)) (outOff : Fam Nat) (input : Fam (List Byte)) (inOff : Fam Nat) (inlen : Nat)
    (ho : ∀ l, outOff l + 64 ≤ (out l).length) (hi : ∀ l, inOff l + inlen ≤ (input l).length) :
    sha3_512x4 out outOff input inOff inlen =
      .ok fun l => writeAt (out l) (outOff l) (Keccak.sha3_512 (((input l).drop (inOff l)).take inlen)) := by
  unfold sha3_512x4
  obtain ⟨s0, e0, hs0, hz⟩ := clear_ok
  rw [e0, ok_bind]
  obtain ⟨s1, e1, hs1, h1⟩ := absorb4x_ok s0 hs0 hz 72 (by omega) (by omega) (by omega) input inOff inlen hi _ _ sepByte_sha3
  rw [e1, ok_bind]
  obtain ⟨⟨t, s2⟩, e2, h2, -, -⟩ := squeezeblocks4x_ok (fun l => uninit 8 (350 + l) SHA3_512_RATE) (fun _ => 0) 1 s1 72 (by omega) (by omega) hs1
    (by simp)
  rw [e2, ok_bind]
  have hl := fun l => length_sqBytes 72 (by omega) (keccakF (bitsOfLanes (lane l s1))) (length_keccakF _) 1
  have h3 : ∀ l, t l = sqBytes 72 (keccakF (bitsOfLanes (lane l s1))) 1 := fun l => by
    rw [show t l = _ from h2 l, writeAt_full _ _ (by rw [hl]; simp)]
  simp only
  rw [copyOut_ok _ _ _ _ (fun l => by rw [h3, hl]; omega) ho]
  congr 1; funext l
  rw [h3, h1, Keccak.sha3_512,
    show (512 : Nat) = 8 * 64 from rfl, show 1600 - 1024 = 8 * 72 from rfl, sponge_bytes 72 (by omega) (by omega) _ 64 1 (by omega)]

/-- The common part of the two SHAKE functions. -/
theorem squeezeTwo (output : List Byte) (outOff outlen r n q : Nat) (S : List Bool) (hS : S.length = 1600) (hr : r ≤ 200)
    (hq : r * n + q = outlen) (hq2 : q < r) (ho : outOff + outlen ≤ output.length) :
    writeAt (writeAt output outOff (sqBytes r S n)) (outOff + n * r) ((sqBytes r (keccakF^[n] S) 1).take q) =
      writeAt output outOff ((sqBytes r S (n + 1)).take outlen) := by
  have hl := length_sqBytes r hr _ hS n
  have hb : sqBytes r (keccakF^[n] S) 1 = bytesOfBits ((keccakF^[n] S).take (8 * r)) := by rw [sqBytes_succ]; rfl
  rw [hb, sqBytes_succ]
  have hlb := length_sqBlock r hr _ hS n
  generalize bytesOfBits ((keccakF^[n] S).take (8 * r)) = B at *
  generalize sqBytes r S n = A at *
  have := writeAt_append output outOff A (B.take q) (by simp; omega)
  rw [hl] at this
  rw [Nat.mul_comm n r, this, List.take_append, List.take_of_length_le (show A.length ≤ outlen by omega), hl, show outlen - r * n = q by omega]

theorem shake128x4With_ok (out : Fam (List Byte)) (outOff : Fam Nat) (outlen : Nat) (input : Fam (List Byte)) (inOff : Fam Nat) (inlen : Nat)
    (ho : ∀ l, outOff l + outlen ≤ (out l).length) (hi : ∀ l, inOff l + inlen ≤ (input l).length) :
    shake128x4With SHAKE128_RATE out outOff outlen input inOff inlen =
      .ok fun l => writeAt (out l) (outOff l) (Keccak.shake128 (((input l).drop (inOff l)).take inlen) outlen) := by
  unfold shake128x4With
  obtain ⟨s0, e0, hs0, hz⟩ := clear_ok
  rw [e0, ok_bind]
  obtain ⟨s1, e1, hs1, h1⟩ := absorb4x_ok s0 hs0 hz 168 (by omega) (by omega) (by omega) input inOff inlen hi _ _ sepByte_shake
  rw [e1, ok_bind]
  have hq : 168 * (outlen / 168) + outlen % 168 = outlen := Nat.div_add_mod _ _
  have hq2 := Nat.mod_lt outlen (show 0 < 168 by omega)
  simp only [SHAKE128_RATE]
  generalize outlen / 168 = n at *
  generalize outlen % 168 = q at *
  obtain ⟨⟨o, s2⟩, e2, h2, hs2, h3⟩ := squeezeblocks4x_ok out outOff n s1 168 (by omega) (by omega) hs1 (fun l => by have := ho l; omega)
  rw [e2, ok_bind]
  simp only at h2 hs2 h3 ⊢
  have hS : ∀ l, (keccakF (bitsOfLanes (lane l s1))).length = 1600 := fun l => length_keccakF _
  have hl := fun l => length_sqBytes 168 (by omega) _ (hS l) n
  have hspec : ∀ l, Keccak.shake128 (((input l).drop (inOff l)).take inlen) outlen =
      (sqBytes 168 (keccakF (bitsOfLanes (lane l s1))) (n + 1)).take outlen := fun l => by
    rw [Keccak.shake128, show 1600 - 256 = 8 * 168 from rfl, sponge_bytes 168 (by omega) (by omega) _ outlen (n + 1) (by omega), h1]
  simp only [hspec]
  by_cases hq0 : q = 0
  · rw [if_neg (by omega), pure_eq_ok]
    congr 1; funext l
    rw [h2, sqBytes_succ, List.take_append_of_le_length (by have := hl l; omega), List.take_of_length_le (by have := hl l; omega)]
  · rw [if_pos hq0]
    obtain ⟨⟨t, s3⟩, e4, h4, -, -⟩ := squeezeblocks4x_ok (fun l => uninit 8 (320 + l) 168) (fun _ => 0) 1 s2 168 (by omega) (by omega) hs2
      (by simp)
    rw [e4, ok_bind]
    have hl2 := fun l => length_sqBytes 168 (by omega) (keccakF (bitsOfLanes (lane l s2))) (length_keccakF _) 1
    have h5 : ∀ l, t l = sqBytes 168 (keccakF (bitsOfLanes (lane l s2))) 1 := fun l => by
      rw [show t l = _ from h4 l, writeAt_full _ _ (by rw [hl2]; simp)]
    have hlo : ∀ l, (o l).length = (out l).length := fun l => by
      have := hl l; have := ho l
      rw [h2, length_writeAt _ _ _ (by omega)]
    simp only
    rw [copyOut_ok _ _ _ _ (fun l => by rw [h5, hl2]; omega) (fun l => by have := hlo l; have := ho l; omega)]
    congr 1; funext l
    rw [h5, h2, h3, ← Function.iterate_succ_apply' keccakF, Function.iterate_succ_apply, squeezeTwo _ _ outlen 168 n q _ (hS l) (by omega) hq hq2 (ho l)]

theorem length_shake256 (M : List Byte) (n : Nat) : (Keccak.shake256 M n).length = n := by
  rw [Keccak.shake256, show 1600 - 512 = 8 * 136 from rfl, sponge_bytes 136 (by omega) (by omega) _ n (n / 136 + 1)
    (Nat.le_of_lt (Nat.lt_mul_div_succ n (by omega))), List.length_take, length_sqBytes 136 (by omega) _ (length_absorb _ _)]
  have := Nat.lt_mul_div_succ n (show 0 < 136 by omega)
  omega

theorem shake256x4_ok (out : Fam (List Byte)) (outOff : Fam Nat) (outlen : Nat) (input : Fam (List Byte)) (inOff : Fam Nat) (inlen : Nat)
    (ho : ∀ l, outOff l + outlen ≤ (out l).length) (hi : ∀ l, inOff l + inlen ≤ (input l).length) :
    shake256x4 out outOff outlen input inOff inlen =
      .ok fun l => writeAt (out l) (outOff l) (Keccak.shake256 (((input l).drop (inOff l)).take inlen) outlen) := by
  unfold shake256x4
  obtain ⟨s0, e0, hs0, hz⟩ := clear_ok
  rw [e0, ok_bind]
  obtain ⟨s1, e1, hs1, h1⟩ := absorb4x_ok s0 hs0 hz 136 (by omega) (by omega) (by omega) input inOff inlen hi _ _ sepByte_shake
  rw [e1, ok_bind]
  have hq : 136 * (outlen / 136) + outlen % 136 = outlen := Nat.div_add_mod _ _
  have hq2 := Nat.mod_lt outlen (show 0 < 136 by omega)
  simp only [SHAKE256_RATE]
  generalize outlen / 136 = n at *
  generalize outlen % 136 = q at *
  obtain ⟨⟨o, s2⟩, e2, h2, hs2, h3⟩ := squeezeblocks4x_ok out outOff n s1 136 (by omega) (by omega) hs1 (fun l => by have := ho l; omega)
  rw [e2, ok_bind]
  simp only at h2 hs2 h3 ⊢
  have hS : ∀ l, (keccakF (bitsOfLanes (lane l s1))).length = 1600 := fun l => length_keccakF _
  have hl := fun l => length_sqBytes 136 (by omega) _ (hS l) n
  have hspec : ∀ l, Keccak.shake256 (((input l).drop (inOff l)).take inlen) outlen =
      (sqBytes 136 (keccakF (bitsOfLanes (lane l s1))) (n + 1)).take outlen := fun l => by
    rw [Keccak.shake256, show 1600 - 512 = 8 * 136 from rfl, sponge_bytes 136 (by omega) (by omega) _ outlen (n + 1) (by omega), h1]
  simp only [hspec]
  by_cases hq0 : q = 0
  · rw [if_neg (by omega), pure_eq_ok]
    congr 1; funext l
    rw [h2, sqBytes_succ, List.take_append_of_le_length (by have := hl l; omega), List.take_of_length_le (by have := hl l; omega)]
  · rw [if_pos hq0]
    obtain ⟨⟨t, s3⟩, e4, h4, -, -⟩ := squeezeblocks4x_ok (fun l => uninit 8 (330 + l) 136) (fun _ => 0) 1 s2 136 (by omega) (by omega) hs2
      (by simp)
    rw [e4, ok_bind]
    have hl2 := fun l => length_sqBytes 136 (by omega) (keccakF (bitsOfLanes (lane l s2))) (length_keccakF _) 1
    have h5 : ∀ l, t l = sqBytes 136 (keccakF (bitsOfLanes (lane l s2))) 1 := fun l => by
      rw [show t l = _ from h4 l, writeAt_full _ _ (by rw [hl2]; simp)]
    have hlo : ∀ l, (o l).length = (out l).length := fun l => by
      have := hl l; have := ho l
      rw [h2, length_writeAt _ _ _ (by omega)]
    simp only
    rw [copyOut_ok _ _ _ _ (fun l => by rw [h5, hl2]; omega) (fun l => by have := hlo l; have := ho l; omega)]
    congr 1; funext l
    rw [h5, h2, h3, ← Function.iterate_succ_apply' keccakF, Function.iterate_succ_apply, squeezeTwo _ _ outlen 136 n q _ (hS l) (by omega) hq hq2 (ho l)]

/-! ### The overrun of `shake128x4` -/

theorem loop_error {σ : Type} {n k : Nat} {s t : σ} {body : Nat → σ → CM σ} {e : UB} (hk : k < n) (h : loop k s body = .ok t)
    (he : body k t = .error e) : loop n s body = .error e := by
  induction n with
  | zero => omega
  | succ n ih =>
    rw [loop]
    by_cases hkn : k = n
    · subst hkn; rw [h, ok_bind, he]
    · rw [ih (by omega)]; rfl

theorem store64_oob (xs : List Byte) (off : Nat) (u : BitVec 64) (h : xs.length = off) : store64 xs off u = .error .oob := by
  unfold store64
  rw [loop_error (k := 0) (by omega) rfl (by dsimp only; rw [wr_oob (by omega)]; rfl)]; rfl

/-- Squeezing a block of 168 bytes into arrays of 136 bytes writes outside of them. -/
theorem squeeze_overrun (h : Fam (List Byte)) (hh : ∀ l, (h l).length = 136) (s : List V256) (hs : s.length = 25) :
    keccak_squeezeblocks4x h (fun _ => 0) 1 s 168 = .error .oob := by
  obtain ⟨s', e, hs', -⟩ := permute_ok s hs
  unfold keccak_squeezeblocks4x
  rw [loop, loop, ok_bind]
  simp only
  rw [e, ok_bind]
  have h17 : Ok (loop 17 h fun i (h : Fam (List Byte)) => four h fun l h => do
      let v ← ssRd s' (4 * i + l)
      let a ← store64 (h l) (0 + 8 * i) v
      pure (setFam h l a)) fun t => ∀ l, (t l).length = 136 := by
    have key : Sim (loop 17 h fun i (h : Fam (List Byte)) => four h fun l h => do
        let v ← ssRd s' (4 * i + l)
        let a ← store64 (h l) (0 + 8 * i) v
        pure (setFam h l a)) (fun l => loop 17 (h l) fun i h => do
          let v ← rd (lane l s') i
          store64 h (0 + 8 * i) v) id := by
      refine Sim.loop id fun i _ t => ?_
      have := Sim.fam (t := t) (g := fun l h => do
        let v ← rd (lane l s') i
        store64 h (0 + 8 * i) v)
      simp only [bind_assoc, rd_lane] at this ⊢
      exact this
    have hok : ∀ l, Ok (loop 17 (h l) fun i h => do
        let v ← rd (lane l s') i
        store64 h (0 + 8 * i) v) fun t => t.length = 136 := fun l => by
      refine loop_inv (fun _ (t : List Byte) => t.length = 136) (hh l) fun i t hi ht => ?_
      rw [rd_ok 0 (by simp; omega), ok_bind, store64_ok _ _ _ (by omega)]
      exact Ok.pure (by rw [length_writeAt _ _ _ (by simp; omega), ht])
    choose b hb hb1 using hok
    obtain ⟨a, ha, hab⟩ := key b hb
    exact ⟨a, ha, fun l => by rw [← hb1 l, ← hab]; rfl⟩
  obtain ⟨t, ht, hl⟩ := h17
  rw [loop_error (n := 168 >>> 3) (by decide) ht (e := .oob)]
  · rfl
  · rw [four, ← rd_lane, rd_ok 0 (by simp; omega), ok_bind, store64_oob _ _ _ (hl 0)]; rfl

theorem shake128x4_overrun (out : Fam (List Byte)) (outOff : Fam Nat) (outlen : Nat) (input : Fam (List Byte)) (inOff : Fam Nat) (inlen : Nat)
    (ho : ∀ l, outOff l + outlen ≤ (out l).length) (hi : ∀ l, inOff l + inlen ≤ (input l).length) (hq0 : outlen % 168 ≠ 0) :
    shake128x4 out outOff outlen input inOff inlen = .error .oob := by
  unfold shake128x4 shake128x4With
  obtain ⟨s0, e0, hs0, hz⟩ := clear_ok
  rw [e0, ok_bind]
  obtain ⟨s1, e1, hs1, h1⟩ := absorb4x_ok s0 hs0 hz 168 (by omega) (by omega) (by omega) input inOff inlen hi _ _ sepByte_shake
  rw [e1, ok_bind]
  obtain ⟨⟨o, s2⟩, e2, -, hs2, -⟩ := squeezeblocks4x_ok out outOff (outlen / 168) s1 168 (by omega) (by omega) hs1
    (fun l => by have := ho l; omega)
  rw [e2, ok_bind]
  simp only
  rw [if_pos hq0, squeeze_overrun _ (by simp) s2 hs2]; rfl

/-- A multiple of the rate does not need the arrays. -/
theorem shake128x4_multiple (out : Fam (List Byte)) (outOff : Fam Nat) (outlen : Nat) (input : Fam (List Byte)) (inOff : Fam Nat) (inlen : Nat)
    (ho : ∀ l, outOff l + outlen ≤ (out l).length) (hi : ∀ l, inOff l + inlen ≤ (input l).length) (hq0 : outlen % 168 = 0) :
    shake128x4 out outOff outlen input inOff inlen =
      .ok fun l => writeAt (out l) (outOff l) (Keccak.shake128 (((input l).drop (inOff l)).take inlen) outlen) := by
  rw [← shake128x4With_ok out outOff outlen input inOff inlen ho hi]
  unfold shake128x4 shake128x4With
  simp only [SHAKE128_RATE, hq0, ne_eq, not_true_eq_false, if_false]

end Saber.X4
