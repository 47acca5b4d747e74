import Verif.Model.X4.Kem
import Verif.Proof.X4.Unpack
/-!
# `SABER_indcpa.c` of SaberX4, lane by lane
-/
namespace Saber.X4
open Spec

theorem range_map_getD {α : Type} {n : Nat} (a : List α) (d : α) (h : a.length = n) : (List.range n).map (fun i => a.getD i d) = a := by
  have := map_getD_range a 0 n d (by omega)
  simpa only [Nat.zero_add, List.drop_zero, List.take_of_length_le (Nat.le_of_eq h)] using this

/-- A loop that works on row `i` only. -/
theorem inRow {α : Type} (n i : Nat) (d : α) (res : List α) (hi : i < res.length) (f : Nat → α → CM α) {v : α}
    (body : Nat → List α → CM (List α))
    (hbody : ∀ j r, j < n → i < r.length → body j r = (f j (r.getD i d) >>= fun v => wr r i v))
    (h : loop n (res.getD i d) f = .ok v) : loop n res body = .ok (res.set i v) := by
  obtain ⟨r, hr, w, rfl, rfl⟩ := rowLoop_ok n i d res hi f (· = v) body hbody ⟨v, h, rfl⟩
  exact hr

theorem Sim.loop2 {τ : Type} {n m : Nat} {t : Fam τ} {g : Fin 4 → Nat → Nat → τ → CM τ} :
    Sim (Saber.loop n t fun i t => Saber.loop m t fun j t => X4.fourA t fun l x => g l i j x)
      (fun l => Saber.loop n (t l) fun i x => Saber.loop m x fun j x => g l i j x) id := by
  apply Sim.loop id
  intro i _ s
  apply Sim.loop id
  intro j _ s
  exact Sim.fourA

theorem Sim.loop3 {τ : Type} {n m p : Nat} {t : Fam τ} {g : Fin 4 → Nat → Nat → Nat → τ → CM τ} :
    Sim (Saber.loop n t fun i t => Saber.loop m t fun j t => Saber.loop p t fun k t => X4.fourA t fun l x => g l i j k x)
      (fun l => Saber.loop n (t l) fun i x => Saber.loop m x fun j x => Saber.loop p x fun k x => g l i j k x) id := by
  apply Sim.loop id
  intro i _ s
  exact Sim.loop2

theorem loadVec4x_ok {dst : Fam (List (List Avx.Vec))} {src : Fam (List (List (BitVec 16)))} (hd : ∀ l, Avx.IsVV 3 16 (dst l))
    (hs : ∀ l, IsVec 3 (src l)) : loadVec4x dst src = .ok fun l => Avx.vecsV .saber (src l) := by
  refine Sim.eq (m := fun l => loop K (dst l) fun i dst => loop (N / 16) dst fun j dst => do
    let row ← rd (src l) i
    let v ← Avx.loadu row (j * 16)
    wr2 dst i j v) (Sim.loop2) fun l => ?_
  refine loop_rows 3 (dst l) (hd l).1 [] (fun i => Avx.vecsOf ((src l).getD i [])) _ fun i a hi ha he => ?_
  refine inRow (N / 16) i [] a (by omega) (fun j d => do
    let v ← Avx.loadu ((src l).getD i []) (j * 16)
    wr d j v) _ (fun j r _ hr => ?_) ?_
  · rw [rd_ok [] (by rw [(hs l).1]; exact hi), ok_bind]
    simp only [wr2, rd_ok [] hr, ok_bind, bind_assoc]
  · rw [he]
    exact Avx.loadRow_ok ((hd l).2 i hi) ((hs l).2 i hi)

theorem storeVec4x_ok {dst : Fam (List (List (BitVec 16)))} {v : Fam (List (List Avx.Vec))} (hd : ∀ l, IsVec 3 (dst l))
    (hv : ∀ l, Avx.IsVV 3 16 (v l)) {b : Fam (List (List (BitVec 16)))} (hb : ∀ l, Avx.storeVec .saber (dst l) (v l) = .ok (b l)) :
    storeVec4x dst v = .ok b := by
  refine Sim.eq (m := fun l => loop K (dst l) fun i dst => loop (N / 16) dst fun j dst => do
    let x ← rd2 (v l) i j
    let row ← rd dst i
    let row ← Avx.maskstore row (j * 16) Avx.mask_load x
    wr dst i row) (Sim.loop2) fun l => ?_
  rw [← hb l, Avx.storeVec_ok .saber (hd l) (hv l)]
  refine loop_rows 3 (dst l) (hd l).1 [] (fun i => Avx.rowOf ((v l).getD i [])) _ fun i a hi ha he => ?_
  refine inRow (N / 16) i [] a (by omega) (fun j d => do
    let x ← rd ((v l).getD i []) j
    Avx.maskstore d (j * 16) Avx.mask_load x) _ (fun j r _ hr => ?_) ?_
  · rw [rd2, rd_ok [] (by rw [(hv l).1]; exact hi), ok_bind, rd_ok [] hr]
    simp only [ok_bind, bind_assoc]
  · rw [he]
    exact Avx.storeRow_ok ((hd l).2 i hi) ((hv l).2 i hi)

theorem and_mod (x : BitVec 16) : (x >>> 3) &&& (8191 : BitVec 16) = x >>> 3 := by
  apply BitVec.eq_of_toNat_eq
  rw [BitVec.toNat_and, show (8191 : BitVec 16).toNat = 2 ^ 13 - 1 from rfl, Nat.and_two_pow_sub_one_eq_mod, BitVec.toNat_ushiftRight,
    Nat.shiftRight_eq_div_pow]
  have := x.isLt
  omega

theorem truncVec4x_sim {v : Fam (List (List Avx.Vec))} : Sim (truncVec4x v) (fun l => Avx.truncVec .saber (v l)) id := by
  refine Sim.loop id fun i _ s => Sim.loop id fun j _ s => ?_
  have h : (fun l => (do
      let ri ← rd (s l) i
      let x ← rd ri j
      let ri ← wr ri j fun t => ((x t + Avx.H1_avx t) >>> (EQ - EP)) &&& Avx.mod t
      wr (s l) i ri)) = fun l => (do
      let x ← rd2 (s l) i j
      wr2 (s l) i j fun t => (x t + Avx.H1_avx t) >>> (EQ - EP)) := by
    funext l
    have e : ∀ x : Avx.Vec, (fun t => ((x t + Avx.H1_avx t) >>> (EQ - EP)) &&& Avx.mod t) = fun t => (x t + Avx.H1_avx t) >>> (EQ - EP) :=
      fun x => funext fun t => and_mod _
    simp only [e]
    unfold rd2 wr2
    cases hr : rd (s l) i with
    | error e => rfl
    | ok ri => simp only [ok_bind]
  show Sim _ (fun l => (do
      let ri ← rd (s l) i
      let x ← rd ri j
      let ri ← wr ri j fun t => ((x t + Avx.H1_avx t) >>> (EQ - EP)) &&& Avx.mod t
      wr (s l) i ri)) id
  rw [h]
  exact Sim.fourA

theorem clearVV4x_ok {v : Fam (List (List Avx.Vec))} (hv : ∀ l, Avx.IsVV 3 16 (v l)) :
    Ok (clearVV4x v) fun r => ∀ l, Avx.IsVV 3 16 (r l) := by
  have hl : ∀ l, Ok (loop K (v l) fun i res => loop (N / 16) res fun j res => do
    let x ← rd2 res i j
    wr2 res i j fun l => x l ^^^ x l) (Avx.IsVV 3 16) := by
    intro l
    refine loop_inv (fun _ => Avx.IsVV 3 16) (hv l) fun i d hi hd => loop_inv (fun _ => Avx.IsVV 3 16) hd fun j d hj hd => ?_
    have hi' : i < 3 := hi
    have hj' : j < 16 := hj
    rw [rd2, rd_ok [] (by rw [hd.1]; exact hi'), ok_bind, rd_ok (fun _ => 0) (by rw [hd.2 i hi']; exact hj'), ok_bind]
    have := wr2_ok d hd (16 * i + j) (by omega) fun t => (((d.getD i []).getD j fun _ => 0) t ^^^ ((d.getD i []).getD j fun _ => 0) t)
    rw [show (16 * i + j) / 16 = i by omega, show (16 * i + j) % 16 = j by omega] at this
    exact this.mono fun _ h => h.1
  choose b hb h using hl
  have := Sim.eq (m4 := clearVV4x v) (m := fun l => _) (Sim.loop2) hb
  exact ⟨b, this, h⟩

theorem clear4x_sim {v : Fam (List Avx.Vec)} : Sim (clear4x v) (fun l => Avx.clear (v l)) id :=
  Sim.loop id fun _ _ _ => Sim.fourA

theorem evalAll4x_sim {s b : Fam (List (List Avx.Vec))} : Sim (evalAll4x s b) (fun l => Avx.evalAll .saber (s l) (b l)) id :=
  Sim.loop id fun _ _ _ => Sim.fourA

theorem storeRow4x_sim {row : Fam (List (BitVec 16))} {v : Fam (List Avx.Vec)} : Sim (storeRow4x row v) (fun l => Avx.storeRow (row l) (v l)) id :=
  Sim.loop id fun _ _ _ => Sim.fourA

theorem unpackMsg4x_sim {m : Fam (List (BitVec 16))} {r : Fam (List Byte)} : Sim (unpackMsg4x m r) (fun l => BS2POLmsg (r l) 0 (m l)) id := by
  have h : ∀ l, BS2POLmsg (r l) 0 (m l) = (loop KEYBYTES (m l) fun j m => loop 8 m fun i m => do
      let b ← rdN (r l) j
      wr m (8 * j + i) (n16 ((b >>> i) &&& 0x01))) := by
    intro l
    unfold BS2POLmsg
    simp only [Nat.zero_add, Nat.mul_comm 8]
  simp only [h]
  exact Sim.loop2

theorem encodeMessage4x_sim {v : Fam (List Avx.Vec)} {m : Fam (List (BitVec 16))} :
    Sim (encodeMessage4x v m) (fun l => Avx.encodeMessage (v l) (m l)) id := Sim.loop id fun _ _ _ => Sim.fourA

theorem addH1_4x_sim {v : Fam (List Avx.Vec)} : Sim (addH1_4x v) (fun l => Avx.addH1 (v l)) id := Sim.loop id fun _ _ _ => Sim.fourA

theorem truncEnc4x_sim {v m : Fam (List Avx.Vec)} : Sim (truncEnc4x v m) (fun l => Avx.truncEnc .saber (v l) (m l)) id :=
  Sim.loop id fun _ _ _ => Sim.fourA

theorem decRound4x_sim {m op : Fam (List (BitVec 16))} : Sim (decRound4x m op) (fun l => Avx.decRound .saber (m l) (op l)) id :=
  Sim.loop id fun _ _ _ => Sim.fourA

theorem copyBytes4x_ok (n : Nat) (out : Fam (List Byte)) (outOff : Fam Nat) (inp : Fam (List Byte)) (inOff : Fam Nat)
    (ho : ∀ l, outOff l + n ≤ (out l).length) (hi : ∀ l, inOff l + n ≤ (inp l).length) :
    (loop n out fun i out => fourA out fun l out => do
      let v ← rd (inp l) (inOff l + i)
      wr out (outOff l + i) v) = .ok fun l => writeAt (out l) (outOff l) (((inp l).drop (inOff l)).take n) :=
  Sim.eq (m := fun l => memcpy (out l) (outOff l) (inp l) (inOff l) n) (Sim.loop id fun _ _ _ => Sim.fourA)
    fun l => memcpy_ok _ _ _ _ _ (hi l) (ho l)

theorem storeTemp4x_ok {temp : Fam (List (List (BitVec 16)))} {v : Fam (List Avx.Vec)} (ht : ∀ l, IsVec 3 (temp l)) (hv : ∀ l, (v l).length = 16) :
    storeTemp4x temp v = .ok fun l => (temp l).set 0 (Avx.rowOf (v l)) := by
  refine Sim.eq (m := fun l => loop (N / 16) (temp l) fun j temp => do
    let x ← rd (v l) j
    let row ← rd temp 0
    let row ← Avx.maskstore row (j * 16) Avx.mask_load x
    wr temp 0 row) (Sim.loop id fun j _ s => Sim.fourA) fun l => ?_
  refine inRow (N / 16) 0 [] (temp l) (by rw [(ht l).1]; decide) (fun j d => do
    let x ← rd (v l) j
    Avx.maskstore d (j * 16) Avx.mask_load x) _ (fun j r _ hr => ?_) (Avx.storeRow_ok ((ht l).2 0 (by decide)) (hv l))
  rw [rd_ok [] hr]
  simp only [ok_bind, bind_assoc]

theorem rd3_ok {a : VMat} (ha : a.length = 3) (ha' : ∀ i < 3, Avx.IsVV 3 16 (a.getD i [])) {i j : Nat} (hi : i < 3) (hj : j < 3) :
    rd2 a i j = .ok ((a.getD i []).getD j []) := by
  rw [rd2, rd_ok [] (by omega), ok_bind, rd_ok [] (by rw [(ha' i hi).1]; exact hj)]

theorem copyMat4x_ok {dst src : Fam VMat} (hd : ∀ l, (dst l).length = 3) (hd' : ∀ l, ∀ i < 3, Avx.IsVV 3 16 ((dst l).getD i []))
    (hs : ∀ l, (src l).length = 3) (hs' : ∀ l, ∀ i < 3, Avx.IsVV 3 16 ((src l).getD i [])) : copyMat4x dst src = .ok src := by
  refine Sim.eq (m := fun l => loop K (dst l) fun i dst => loop K dst fun j dst => loop (N / 16) dst fun k dst => do
    let v ← rd2 (src l) i j
    let x ← rd v k
    let di ← rd dst i
    let di ← wr2 di j k x
    wr dst i di) Sim.loop3 fun l => ?_
  rw [loop_rows K (dst l) (hd l) [] (fun i => (src l).getD i [])]
  · exact congrArg _ (range_map_getD _ _ (hs l))
  · intro i a hi ha he
    have hi' : i < 3 := hi
    have hsi := hs' l i hi'
    have hdi := hd' l i hi'
    generalize hS : (src l).getD i [] = S at *
    -- row `j` of row `i`
    have key : ∀ m ≤ 3, (loop m a fun j dst => loop (N / 16) dst fun k dst => do
        let v ← rd2 (src l) i j
        let x ← rd v k
        let di ← rd dst i
        let di ← wr2 di j k x
        wr dst i di) = .ok (a.set i (S.take m ++ ((dst l).getD i []).drop m)) := by
      intro m hm
      induction m with
      | zero =>
        rw [loop_zero, ← he, List.take_zero, List.drop_zero, List.nil_append]
        exact congrArg _ (by
          apply ext_getD []
          · simp
          · intro j hj
            rw [getD_set]; split
            · rename_i h; rw [h.1]
            · rfl)
      | succ m ih =>
        rw [loop_succ, ih (by omega), ok_bind]
        have hil : i < (a.set i (S.take m ++ ((dst l).getD i []).drop m)).length := by rw [List.length_set, ha]; exact hi
        have hrow : (a.set i (S.take m ++ ((dst l).getD i []).drop m)).getD i [] = S.take m ++ ((dst l).getD i []).drop m := by
          rw [getD_set, if_pos ⟨rfl, by rw [ha]; exact hi⟩]
        have hrl : (S.take m ++ ((dst l).getD i []).drop m).length = 3 := by
          simp only [List.length_append, List.length_take, List.length_drop, hsi.1, hdi.1]; omega
        have hrm : ((S.take m ++ ((dst l).getD i []).drop m).getD m []).length = 16 := by
          rw [← hdi.2 m (by omega)]
          congr 1
          simp only [List.getD_eq_getElem?_getD]
          rw [List.getElem?_append_right (by simp), List.getElem?_drop, List.length_take, hsi.1, Nat.min_eq_left (by omega)]
          simp
        rw [inRow (N / 16) i [] _ hil (fun k d => do
          let x ← rd (S.getD m []) k
          wr2 d m k x) _ (v := S.take (m + 1) ++ ((dst l).getD i []).drop (m + 1)) (fun k r _ hr => ?_) ?_]
        · rw [List.set_set]
        · rw [hrow]
          rw [inRow (N / 16) m [] _ (by omega) (fun k d => do
            let x ← rd (S.getD m []) k
            wr d k x) _ (v := S.getD m []) (fun k r _ hr => ?_) ?_]
          · refine congrArg _ ?_
            apply ext_getD []
            · simp only [List.length_set, hrl, List.length_append, List.length_take, List.length_drop, hsi.1, hdi.1]; omega
            · intro j hj
              rw [List.length_set, hrl] at hj
              rw [getD_set, hrl]
              by_cases hjm : m = j
              · subst hjm
                rw [if_pos ⟨rfl, by omega⟩]
                simp only [List.getD_eq_getElem?_getD]
                rw [List.getElem?_append_left (by simp [hsi.1]; omega), List.getElem?_take_of_lt (by omega)]
              · rw [if_neg (by tauto)]
                simp only [List.getD_eq_getElem?_getD]
                by_cases hjl : j < m
                · rw [List.getElem?_append_left (by simp [hsi.1]; omega), List.getElem?_append_left (by simp [hsi.1]; omega),
                    List.getElem?_take_of_lt (by omega), List.getElem?_take_of_lt (by omega)]
                · rw [List.getElem?_append_right (by simp [hsi.1]; omega), List.getElem?_append_right (by simp [hsi.1]; omega),
                    List.getElem?_drop, List.getElem?_drop, List.length_take, List.length_take, hsi.1]
                  congr 2; omega
          · rw [show N / 16 = 16 from rfl, loop_rows 16 _ hrm (fun _ => 0) (fun k => (S.getD m []).getD k fun _ => 0)]
            · exact congrArg _ (range_map_getD _ _ (hsi.2 m (by omega)))
            · intro k a hk ha _
              rw [rd_ok (fun _ => 0) (by rw [hsi.2 m (by omega)]; exact hk), ok_bind, wr_ok (by omega)]
          · unfold wr2
            rw [rd_ok [] hr]
            simp only [ok_bind, bind_assoc]
        · have e : rd2 (src l) i m = .ok (S.getD m []) := by rw [rd3_ok (hs l) (hs' l) hi' (by omega), hS]
          rw [e, ok_bind, rd_ok [] hr]
          simp only [ok_bind, bind_assoc]
    have := key 3 (Nat.le_refl _)
    rw [List.take_of_length_le (by rw [hsi.1]), List.drop_eq_nil_of_le (by rw [hdi.1]), List.append_nil] at this
    exact this

/-! ### Sampling -/

theorem isVM_uninit (t : Nat) : (uninitVMat t).length = 3 ∧ ∀ i < 3, Avx.IsVV 3 16 ((uninitVMat t).getD i []) := by
  refine ⟨by simp [uninitVMat, K], fun i hi => ?_⟩
  rw [uninitVMat, getD_map_range _ _ _ _ (by exact hi)]
  exact Avx.isVV_uninitVV _ _ _

theorem isVM_vecsM (src : List (List (List (BitVec 16)))) : (Avx.vecsM .saber src).length = 3 ∧ ∀ i < 3, Avx.IsVV 3 16 ((Avx.vecsM .saber src).getD i []) :=
  ⟨by simp [Avx.vecsM]; rfl, fun i hi => by rw [Avx.getD_vecsM _ _ (by exact hi)]; exact Avx.isVV_vecsV _ _⟩

/-- The specification's parameters. -/
abbrev spec : USpec.Params := Avx.spec .saber USpec.fips202

/-- One iteration of `GenMatrix4x`. -/
theorem genStep_sim {B : Fam (List Byte)} (hB : ∀ l, (B l).length = 3744) (i j : Nat) (hi : i < 3) (hj : j < 3) (s : Fam VMat) :
    Sim (do
      let v ← famM fun l => rd2 (s l) i j
      let v ← BS2POLq4x B (fun _ => (i * K + j) * (13 * N / 8)) v
      fourA s fun l a => wr2 a i j (v l))
      (fun l => rd2 (s l) i j >>= fun v => if v.length = 16 then
        wr2 (s l) i j (Avx.vecsOf (ofP (unpack 13 ((B l).drop ((i * 3 + j) * 416))))) else .error .oob) id := by
  intro b hb
  choose v hv hb' using fun l => bind_eq_ok (hb l)
  have hl : ∀ l, (v l).length = 16 := fun l => by
    by_contra hc
    have := hb' l
    rw [if_neg hc] at this
    cases this
  have hk : (i * K + j) * (13 * N / 8) = (i * 3 + j) * 416 := rfl
  rw [famM_ok hv, ok_bind, hk, BS2POLq4x_ok B _ v hl fun l => by rw [hB l]; omega, ok_bind]
  refine ⟨b, fourA_ok fun l => ?_, rfl⟩
  have := hb' l
  rwa [if_pos (hl l)] at this

theorem genLane_ok (B : List Byte) {a : VMat} (ha : a.length = 3) (ha' : ∀ i < 3, Avx.IsVV 3 16 (a.getD i [])) :
    (loop 3 a fun i a => loop 3 a fun j a => rd2 a i j >>= fun v => if v.length = 16 then
        wr2 a i j (Avx.vecsOf (ofP (unpack 13 (B.drop ((i * 3 + j) * 416))))) else .error .oob) =
      .ok (Avx.vecsM .saber (ofM (L := 3) fun i j => unpack 13 (B.drop ((i.val * 3 + j.val) * 416)))) := by
  rw [loop_rows 3 a ha [] fun i => (List.range 3).map fun j => Avx.vecsOf (ofP (unpack 13 (B.drop ((i * 3 + j) * 416))))]
  · rfl
  · intro i r hi hr he
    refine inRow 3 i [] r (by omega) (fun j row => rd row j >>= fun v => if v.length = 16 then
        wr row j (Avx.vecsOf (ofP (unpack 13 (B.drop ((i * 3 + j) * 416))))) else .error .oob) _ (fun j r _ hr => ?_) ?_
    · unfold rd2 wr2
      rw [rd_ok [] hr, ok_bind, ok_bind, bind_assoc]
      congr 1
      funext v
      split <;> rfl
    · rw [he]
      refine loop_rows 3 _ (ha' i hi).1 [] _ _ fun j x hj hx hxe => ?_
      rw [rd_ok [] (by omega), ok_bind, hxe, if_pos ((ha' i hi).2 j hj), wr_ok (by omega)]

theorem GenMatrix4x_ok {a : Fam VMat} (ha : ∀ l, (a l).length = 3) (ha' : ∀ l, ∀ i < 3, Avx.IsVV 3 16 ((a l).getD i []))
    {seed : Fam (List Byte)} (hs : ∀ l, (seed l).length = 32) :
    GenMatrix4x 168 a seed = .ok fun l => Avx.vecsM .saber (ofM (USpec.genMatrix spec (seed l))) := by
  unfold GenMatrix4x
  dsimp only
  have hsh := shake128x4With_ok (fun l => uninit 8 (500 + l) (K * K * (13 * N / 8))) (fun _ => 0) (K * K * (13 * N / 8)) seed (fun _ => 0) SEEDBYTES
    (fun l => by simp) (fun l => by rw [hs l]; decide)
  rw [show SHAKE128_RATE = 168 from rfl] at hsh
  rw [hsh, ok_bind]
  have hbuf : ∀ l : Fin 4, writeAt (uninit 8 (500 + l) (K * K * (13 * N / 8))) 0 (Keccak.shake128 (((seed l).drop 0).take SEEDBYTES) (K * K * (13 * N / 8))) =
      Keccak.shake128 (seed l) (3 * 3 * 416) := fun l => by
    rw [writeAt_full _ _ (by simp [length_shake128]), List.drop_zero, List.take_of_length_le (Nat.le_of_eq (hs l))]; rfl
  simp only [hbuf]
  have hl : ∀ l, (Keccak.shake128 (seed l) (3 * 3 * 416)).length = 3744 := fun l => length_shake128 _ _
  change _ = Except.ok fun l => Avx.vecsM .saber (ofM (L := 3) fun i j => unpack 13 ((Keccak.shake128 (seed l) (3 * 3 * 416)).drop ((i.val * 3 + j.val) * 416)))
  refine Sim.eq (m := fun l => loop 3 (a l) fun i a => loop 3 a fun j a => rd2 a i j >>= fun v => if v.length = 16 then
        wr2 a i j (Avx.vecsOf (ofP (unpack 13 ((Keccak.shake128 (seed l) (3 * 3 * 416)).drop ((i * 3 + j) * 416))))) else .error .oob) ?_
    fun l => genLane_ok _ (ha l) (ha' l)
  apply Sim.loop id
  intro i hi s
  apply Sim.loop id
  intro j hj s
  exact genStep_sim hl i j hi hj s

theorem GenSecret4x_ok {r : Fam (List (List (BitVec 16)))} (hr : ∀ l, IsVec 3 (r l))
    {seed : Fam (List Byte)} {seedOff : Nat} (hs : ∀ l, seedOff + 32 ≤ (seed l).length) :
    GenSecret4x 168 r seed seedOff = .ok fun l => ofV (Avx.redV (USpec.genSecret spec (((seed l).drop seedOff).take 32))) := by
  unfold GenSecret4x
  dsimp only
  have hsh := shake128x4With_ok (fun l => uninit 8 (510 + l) (PSet.saber.MU * N * K / 8)) (fun _ => 0) (PSet.saber.MU * N * K / 8) seed (fun _ => seedOff) SEEDBYTES
    (fun l => by simp) (fun l => hs l)
  rw [show SHAKE128_RATE = 168 from rfl] at hsh
  rw [hsh, ok_bind]
  refine Sim.eq (m := fun l => Saber.loop K (r l) fun i r => do
    let ri ← rd r i
    let ri ← Avx.cbd .saber ri (writeAt (uninit 8 (510 + l) (PSet.saber.MU * N * K / 8)) 0 (Keccak.shake128 (((seed l).drop seedOff).take SEEDBYTES) (PSet.saber.MU * N * K / 8))) (i * PSet.saber.MU * N / 8)
    wr r i ri) ?_ fun l => ?_
  · apply Sim.loop id
    intro i hi s
    exact Sim.fourA
  · have hl : (Keccak.shake128 (((seed l).drop seedOff).take 32) 768).length = 768 := length_shake128 _ _
    rw [writeAt_full _ _ (by rw [length_uninit]; exact hl.symm)]
    change _ = Except.ok (ofV (Avx.redV (L := 3) fun i => centredBinomial 8 ((Keccak.shake128 (((seed l).drop seedOff).take 32) 768).drop (i.val * 8 * 32))))
    change Saber.loop 3 (r l) (fun i r => do
      let ri ← rd r i
      let ri ← Avx.cbd .saber ri (Keccak.shake128 (((seed l).drop seedOff).take 32) 768) (i * PSet.saber.MU * N / 8)
      wr r i ri) = _
    generalize Keccak.shake128 (((seed l).drop seedOff).take 32) 768 = buf at *
    rw [loop_rows 3 (r l) (hr l).1 [] (fun i => ofP (Avx.redP (centredBinomial 8 (buf.drop (i * 8 * 32)))))]
    · rfl
    · intro i a hi ha he
      have eo : i * PSet.saber.MU * N / 8 = i * 8 * 32 := by simp only [N, show PSet.saber.MU = 8 from rfl]; omega
      rw [rd_ok [] (by omega), ok_bind, he, eo, Avx.cbd_ok .saber ((hr l).2 i hi) (by rw [hl, show PSet.saber.MU = 8 from rfl]; omega), ok_bind, wr_ok (by omega)]
      rfl

end Saber.X4
