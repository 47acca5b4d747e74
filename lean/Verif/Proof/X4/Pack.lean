import Verif.Proof.X4.Blocks
/-!
# SaberX4's packing functions: each lane is the function of the specification
-/
namespace Saber.X4

theorem flatMap_range_congr {α : Type} (n : Nat) (f g : Nat → List α) (h : ∀ i < n, f i = g i) :
    (List.range n).flatMap f = (List.range n).flatMap g := by
  rw [List.flatMap_def, List.flatMap_def, List.map_congr_left fun i hi => h i (List.mem_range.mp hi)]

theorem map_range_congr {α : Type} (n : Nat) (f g : Nat → α) (h : ∀ i < n, f i = g i) : (List.range n).map f = (List.range n).map g :=
  List.map_congr_left fun i hi => h i (List.mem_range.mp hi)

/-- A 256-bit vector whose element `l` of half `h` is `f l h`, extended. -/
def ext2 {v : Nat} (f g : Fin 4 → BitVec v) : V8 := insertf128 (fun l => (f l).setWidth 32) (fun l => (g l).setWidth 32)

/-- The array whose element `j` holds the elements `j` and `n + j` of four sequences. -/
def arr {v : Nat} (n : Nat) (f : Fin 4 → Nat → BitVec v) : List V8 := (List.range n).map fun j => ext2 (fun l => f l j) (fun l => f l (n + j))

@[simp] theorem length_arr {v : Nat} (n : Nat) (f : Fin 4 → Nat → BitVec v) : (arr n f).length = n := by simp [arr]

theorem rd_arr {v : Nat} (n : Nat) (f : Fin 4 → Nat → BitVec v) {j : Nat} (hj : j < n) :
    rd (arr n f) j = .ok (ext2 (fun l => f l j) (fun l => f l (n + j))) := by
  rw [rd_ok (fun _ => 0) (by simpa using hj), arr, getD_map_range _ _ _ _ hj]

/-! ### Loads -/

theorem load_ps_ok (bytes : List Byte) (off : Nat) (h : off + 16 ≤ bytes.length) :
    load_ps bytes off = .ok fun c => bytes.getD (off + (4 * c + 3)) 0 ++ bytes.getD (off + (4 * c + 2)) 0 ++ bytes.getD (off + (4 * c + 1)) 0 ++
      bytes.getD (off + (4 * c)) 0 := by
  unfold load_ps
  rw [gather_ok 16 _ 0 (fun i => bytes.getD (off + i) 0) fun i hi => rd_ok 0 (by omega), ok_bind]
  congr 1
  funext c
  have := c.isLt
  simp only [if_pos (show 4 * c.val + 3 < 16 by omega), if_pos (show 4 * c.val + 2 < 16 by omega), if_pos (show 4 * c.val + 1 < 16 by omega),
    if_pos (show 4 * c.val < 16 by omega)]

/-- Coefficient `n` of a vector of polynomials, counted through all rows. -/
def coef (data : List (List (BitVec 16))) (n : Nat) : BitVec 16 := (data.getD (n / 256) []).getD (n % 256) 0

theorem flatRd_ok (data : List (List (BitVec 16))) (hd : IsVec 3 data) {n : Nat} (hn : n < 768) : flatRd data n = .ok (coef data n) := by
  unfold flatRd coef
  rw [show N = 256 from rfl, rd_ok [] (by rw [hd.1]; omega), ok_bind, rd_ok 0 (by rw [hd.2 _ (by omega)]; omega)]

theorem load_ps16_ok (data : List (List (BitVec 16))) (hd : IsVec 3 data) (off : Nat) (h : off + 8 ≤ 768) :
    load_ps16 data off = .ok fun c => coef data (off + (2 * c + 1)) ++ coef data (off + (2 * c)) := by
  unfold load_ps16
  rw [gather_ok 8 _ 0 (fun i => coef data (off + i)) fun i hi => flatRd_ok data hd (by omega), ok_bind]
  refine congrArg Except.ok (funext fun c => ?_)
  have := c.isLt
  beta_reduce
  rw [if_pos (show 2 * c.val + 1 < 8 by omega), if_pos (show 2 * c.val < 8 by omega)]

theorem loadBlock_ok (ld : Fin 4 → Nat → CM V4) (off0 off1 : Fam Nat) (lo hi : Fam V4) (h0 : ∀ l, ld l (off0 l) = .ok (lo l))
    (h1 : ∀ l, ld l (off1 l) = .ok (hi l)) :
    loadBlock ld off0 off1 = .ok fun r => insertf128 (fun c => lo c r) (fun c => hi c r) := by
  unfold loadBlock
  rw [famM_ok h0, ok_bind, famM_ok h1, ok_bind]
  rfl

theorem avx_load_8bit_16bit_ok (bs : Fam (List Byte)) (off : Fam Nat) (avx_bytes : List V8) (n : Nat) (ha : avx_bytes.length = 16 * n)
    (hb : ∀ l, off l + 32 * n ≤ (bs l).length) :
    avx_load_8bit_16bit bs off avx_bytes (32 * n) = .ok (arr (16 * n) fun l j => (bs l).getD (off l + j) 0) := by
  unfold avx_load_8bit_16bit arr
  rw [show 32 * n / 32 = n by omega, show 4 * (32 * n * 8 / (32 * 2)) = 16 * n by omega, ← flatMap_map_range,
    loop_blocks 16 (fun i => (List.range 16).map fun j => ext2 (fun l => (bs l).getD (off l + (16 * i + j)) 0)
      (fun l => (bs l).getD (off l + (16 * n + (16 * i + j))) 0)) (by simp) n _ 0 (by omega), writeAt_full]
  · rw [ha, length_flatMap_range 16 _ (by simp), Nat.mul_comm]
  · intro i a' hi ha'
    rw [loadBlock_ok _ _ _ _ _ (fun l => load_ps_ok (bs l) (off l + 16 * i) (by have := hb l; omega))
      (fun l => load_ps_ok (bs l) (off l + 16 * n + 16 * i) (by have := hb l; omega))]
    simp only [ok_bind, srli8_cat, slli8_cat, byte0_eq, byte1_eq, byte2_eq, byte3_eq]
    rw [Nat.zero_add, Nat.mul_comm i 16]
    rw [show List.range 16 = [0, 1, 2, 3, 4, 5, 6, 7, 8, 9, 10, 11, 12, 13, 14, 15] from rfl]
    simp only [List.map_cons, List.map_nil, ext2, Nat.add_assoc]
    rfl

theorem avx_load_16bit_8bit_ok (data : Fam (List (List (BitVec 16)))) (hd : ∀ l, IsVec 3 (data l)) (avx_data : List V8)
    (ha : avx_data.length = 384) :
    avx_load_16bit_8bit data avx_data = .ok (arr 384 fun l => coef (data l)) := by
  unfold avx_load_16bit_8bit arr
  rw [show K * N * 16 / (128 * 2) = 48 from rfl, show K / 2 * N + N / 2 = 384 from rfl, show 384 = 8 * 48 from rfl, ← flatMap_map_range,
    loop_blocks 8 (fun i => (List.range 8).map fun j => ext2 (fun l => coef (data l) (8 * i + j))
      (fun l => coef (data l) (8 * 48 + (8 * i + j)))) (by simp) 48 _ 0 (by omega), writeAt_full]
  · rw [ha, length_flatMap_range 8 _ (by simp)]
  · intro i a' hi ha'
    rw [loadBlock_ok _ _ _ _ _ (fun l => load_ps16_ok (data l) (hd l) (8 * i) (by omega))
      (fun l => load_ps16_ok (data l) (hd l) (8 * 48 + 8 * i) (by omega))]
    simp only [ok_bind, srli8_cat, slli8_cat, half0_eq, half1_eq]
    rw [Nat.zero_add, Nat.mul_comm i 8]
    rw [show List.range 8 = [0, 1, 2, 3, 4, 5, 6, 7] from rfl]
    simp only [List.map_cons, List.map_nil, ext2, Nat.add_assoc]
    rfl

/-! ### Stores -/

theorem extract16_ok {v : Nat} (n : Nat) (f : Fin 4 → Nat → BitVec v) (k : Nat) (hk : 16 * k + 16 ≤ n) (h : Fin 2) :
    extract16 (arr n f) (16 * k) h = .ok fun g r c => (f r (n * h.val + (16 * k + (4 * g.val + c.val)))).setWidth 32 := by
  unfold extract16
  rw [gather_ok 16 _ _ (fun i => ext2 (fun l => f l (16 * k + i)) (fun l => f l (n + (16 * k + i)))) fun i hi => rd_arr n f (by omega), ok_bind]
  congr 1
  funext g r c
  simp only [TRANSPOSE4]
  rw [if_pos (by omega), ext2]
  have e : h = 0 ∨ h = 1 := by fin_cases h <;> simp
  rcases e with rfl | rfl
  · rw [extractf128_cat0]; simp
  · rw [extractf128_cat1]; simp

theorem pack8_lane (f : Fin 4 → Nat → BitVec 8) (o : Nat) (r : Fin 4) (t : Fin 16) :
    pack8 (fun g r c => (f r (o + (4 * g.val + c.val))).setWidth 32) r t = f r (o + t.val) := by
  simp only [pack8, packus_epi16, packus_epi32, cat]
  fin_cases t <;> exact satU_byte _

theorem pack16_lane (f : Fin 4 → Nat → BitVec 16) (hf : ∀ l j, (f l j).toNat < 32768) (o : Nat) (r : Fin 4) (t : Fin 16) :
    pack16 (fun g r c => (f r (o + (4 * g.val + c.val))).setWidth 32) r t = f r (o + t.val) := by
  simp only [pack16, packs_epi32, cat]
  fin_cases t <;> exact satS_small _ (hf _ _)

theorem store_loop_ok (b0 : List Byte) (off n : Nat) (f : Nat → Byte) (hb : off + 32 * n ≤ b0.length) :
    (loop n b0 fun k b => do
      let b ← store_si128 b (off + 16 * k) fun t => f (16 * k + t.val)
      store_si128 b (off + 16 * n + 16 * k) fun t => f (16 * n + (16 * k + t.val))) =
    .ok (writeAt b0 off ((List.range (32 * n)).map f)) := by
  have key : Ok (loop n b0 fun k b => do
      let b ← store_si128 b (off + 16 * k) fun t => f (16 * k + t.val)
      store_si128 b (off + 16 * n + 16 * k) fun t => f (16 * n + (16 * k + t.val)))
      fun b => b.length = b0.length ∧ ∀ j, b.getD j 0 =
        if (off ≤ j ∧ j < off + 16 * n) ∨ (off + 16 * n ≤ j ∧ j < off + 16 * n + 16 * n) then f (j - off) else b0.getD j 0 := by
    apply loop_inv (fun k (b : List Byte) => b.length = b0.length ∧ ∀ j, b.getD j 0 =
        if (off ≤ j ∧ j < off + 16 * k) ∨ (off + 16 * n ≤ j ∧ j < off + 16 * n + 16 * k) then f (j - off) else b0.getD j 0)
    · refine ⟨rfl, fun j => ?_⟩
      rw [if_neg (by omega)]
    · intro k b hk ⟨hl, hj⟩
      have hlen : ∀ g : Fin 16 → Byte, ((List.finRange 16).map g).length = 16 := fun g => by simp
      have hw1 : off + 16 * k + ((List.finRange 16).map fun t : Fin 16 => f (16 * k + t.val)).length ≤ b.length := by rw [hlen]; omega
      have hl1 := length_writeAt b (off + 16 * k) _ hw1
      have hw2 : off + 16 * n + 16 * k + ((List.finRange 16).map fun t : Fin 16 => f (16 * n + (16 * k + t.val))).length ≤
          (writeAt b (off + 16 * k) ((List.finRange 16).map fun t : Fin 16 => f (16 * k + t.val))).length := by rw [hl1, hlen]; omega
      have gd : ∀ (h : Nat → Byte) (i : Nat), i < 16 → ((List.finRange 16).map fun t : Fin 16 => h t.val).getD i 0 = h i := by
        intro h i hi
        rw [finRange_map_val, getD_map_range _ _ _ _ hi]
      unfold store_si128
      rw [wrs_ok _ _ _ hw1, ok_bind, wrs_ok _ _ _ hw2]
      refine Ok.pure ⟨by rw [length_writeAt _ _ _ hw2, hl1, hl], fun j => ?_⟩
      rw [getD_writeAt _ _ _ hw2, getD_writeAt _ _ _ hw1, hj, hlen, hlen]
      by_cases c2 : off + 16 * n + 16 * k ≤ j ∧ j < off + 16 * n + 16 * k + 16
      · rw [if_pos c2, if_pos (by omega), gd (fun i => f (16 * n + (16 * k + i))) _ (by omega)]
        congr 1; omega
      · rw [if_neg c2]
        by_cases c1 : off + 16 * k ≤ j ∧ j < off + 16 * k + 16
        · rw [if_pos c1, if_pos (by omega), gd (fun i => f (16 * k + i)) _ (by omega)]
          congr 1; omega
        · rw [if_neg c1]
          by_cases c0 : (off ≤ j ∧ j < off + 16 * k) ∨ (off + 16 * n ≤ j ∧ j < off + 16 * n + 16 * k)
          · rw [if_pos c0, if_pos (by omega)]
          · rw [if_neg c0, if_neg (by omega)]
  obtain ⟨b, hb', hl, hj⟩ := key
  rw [hb']
  congr 1
  have hlen : ((List.range (32 * n)).map f).length = 32 * n := by simp
  have hw : off + ((List.range (32 * n)).map f).length ≤ b0.length := by rw [hlen]; exact hb
  apply ext_getD 0
  · rw [length_writeAt _ _ _ hw, hl]
  · intro j hj'
    rw [hj, getD_writeAt _ _ _ hw, hlen]
    by_cases c : off ≤ j ∧ j < off + 32 * n
    · rw [if_pos c, if_pos (by omega), getD_map_range _ _ _ _ (by omega)]
    · rw [if_neg c, if_neg (by omega)]

theorem avx_store_8bit_bs_ok (n : Nat) (f : Fin 4 → Nat → BitVec 8) (bytes : Fam (List Byte)) (off : Fam Nat)
    (hb : ∀ l, off l + 32 * n ≤ (bytes l).length) :
    avx_store_8bit_bs (arr (16 * n) f) (16 * n) bytes off (16 * n) = .ok fun l => writeAt (bytes l) (off l) ((List.range (32 * n)).map (f l)) := by
  unfold avx_store_8bit_bs
  rw [show 16 * n / 16 = n by omega]
  refine Sim.eq (m := fun l => loop n (bytes l) fun k b => do
      let b ← store_si128 b (off l + 16 * k) fun t => f l (16 * k + t.val)
      store_si128 b (off l + 16 * n + 16 * k) fun t => f l (16 * n + (16 * k + t.val))) ?_ fun l => store_loop_ok _ _ n (f l) (hb l)
  apply Sim.loop id
  intro k hk s
  rw [extract16_ok (16 * n) f k (by omega), ok_bind]
  refine Sim.bind (π := id) ?_ fun a _ _ => ?_
  · have e : ∀ r, pack8 (fun g r c => (f r (16 * n * (0 : Fin 2).val + (16 * k + (4 * g.val + c.val)))).setWidth 32) r =
        fun t : Fin 16 => f r (16 * k + t.val) := fun r => funext fun t => by
      have := pack8_lane f (16 * k) r t
      simpa using this
    simp only [e]
    exact Sim.fourA
  · rw [extract16_ok (16 * n) f k (by omega), ok_bind]
    have e : ∀ r, pack8 (fun g r c => (f r (16 * n * (1 : Fin 2).val + (16 * k + (4 * g.val + c.val)))).setWidth 32) r =
        fun t : Fin 16 => f r (16 * n + (16 * k + t.val)) := fun r => funext fun t => by
      have := pack8_lane f (16 * n + 16 * k) r t
      simpa [Nat.add_assoc] using this
    simp only [e]
    exact Sim.fourA

/-- Three rows of 16 vectors. -/
def grid (V : Nat → Avx.Vec) : List (List Avx.Vec) := (List.range 3).map fun n => (List.range 16).map fun m => V (16 * n + m)

/-- Vector number `j`, counted through all rows. -/
def el2 (d : List (List Avx.Vec)) (j : Nat) : Avx.Vec := (d.getD (j / 16) []).getD (j % 16) fun _ => 0

theorem wr2_ok (d : List (List Avx.Vec)) (hd : Avx.IsVV 3 16 d) (i : Nat) (hi : i < 48) (v : Avx.Vec) :
    Ok (wr2 d (i / 16) (i % 16) v) fun d' => Avx.IsVV 3 16 d' ∧ ∀ j, el2 d' j = if j = i then v else el2 d j := by
  have h3 : i / 16 < 3 := by omega
  have hr := hd.2 (i / 16) h3
  unfold wr2
  rw [rd_ok [] (by rw [hd.1]; exact h3), ok_bind, wr_ok (by rw [hr]; omega), ok_bind, wr_ok (by rw [hd.1]; exact h3)]
  refine Ok.pure ⟨⟨by rw [List.length_set, hd.1], fun k hk => ?_⟩, fun j => ?_⟩
  · rw [getD_set]
    split
    · rw [List.length_set, hr]
    · exact hd.2 k hk
  · unfold el2
    rw [getD_set, hd.1]
    by_cases h1 : j / 16 = i / 16
    · rw [if_pos (by omega), getD_set, hr]
      by_cases h2 : j % 16 = i % 16
      · rw [if_pos (by omega), if_pos (by omega)]
      · rw [if_neg (by omega), if_neg (by omega), h1]
    · rw [if_neg (by omega), if_neg (by omega)]

theorem grid_of_el2 (d : List (List Avx.Vec)) (hd : Avx.IsVV 3 16 d) (V : Nat → Avx.Vec) (h : ∀ j < 48, el2 d j = V j) : d = grid V := by
  apply ext_getD []
  · rw [hd.1]; simp [grid]
  · intro n hn
    rw [hd.1] at hn
    rw [grid, getD_map_range _ _ _ _ hn]
    apply ext_getD fun _ => 0
    · rw [hd.2 n hn]; simp
    · intro m hm
      rw [hd.2 n hn] at hm
      rw [getD_map_range _ _ _ _ hm, ← h _ (by omega), el2, show (16 * n + m) / 16 = n by omega, show (16 * n + m) % 16 = m by omega]

theorem store16_loop_ok (d0 : List (List Avx.Vec)) (hd : Avx.IsVV 3 16 d0) (V : Nat → Avx.Vec) :
    (loop 24 d0 fun k d => do
      let d ← wr2 d (k / 16) (k % 16) (V k)
      wr2 d ((24 + k) / 16) ((24 + k) % 16) (V (24 + k))) = .ok (grid V) := by
  obtain ⟨d, hd', hv, he⟩ : Ok (loop 24 d0 fun k d => do
      let d ← wr2 d (k / 16) (k % 16) (V k)
      wr2 d ((24 + k) / 16) ((24 + k) % 16) (V (24 + k)))
      fun d => Avx.IsVV 3 16 d ∧ ∀ j, (j < 24 ∨ 24 ≤ j ∧ j < 48) → el2 d j = V j := by
    apply loop_inv (fun k (d : List (List Avx.Vec)) => Avx.IsVV 3 16 d ∧ ∀ j, (j < k ∨ 24 ≤ j ∧ j < 24 + k) → el2 d j = V j)
    · exact ⟨hd, fun j hj => by omega⟩
    · intro k d hk ⟨hv, he⟩
      refine (wr2_ok d hv k (by omega) _).bind fun d1 ⟨hv1, he1⟩ => ?_
      refine (wr2_ok d1 hv1 (24 + k) (by omega) _).mono fun d2 ⟨hv2, he2⟩ => ⟨hv2, fun j hj => ?_⟩
      rw [he2, he1]
      by_cases c1 : j = 24 + k
      · rw [if_pos c1, c1]
      · rw [if_neg c1]
        by_cases c2 : j = k
        · rw [if_pos c2, c2]
        · rw [if_neg c2, he j (by omega)]
  rw [hd', grid_of_el2 d hv V fun j hj => he j (by omega)]

theorem avx_store_16bit_KN_ok (f : Fin 4 → Nat → BitVec 16) (hf : ∀ l j, (f l j).toNat < 32768) (data : Fam (List (List Avx.Vec)))
    (hd : ∀ l, Avx.IsVV 3 16 (data l)) :
    avx_store_16bit_KN (arr 384 f) data = .ok fun l => grid fun n t => f l (16 * n + t.val) := by
  unfold avx_store_16bit_KN
  rw [show K * (N / 16) / 2 = 24 from rfl]
  refine Sim.eq (m := fun l => loop 24 (data l) fun k d => do
      let d ← wr2 d (k / 16) (k % 16) (fun t => f l (16 * k + t.val))
      wr2 d ((24 + k) / 16) ((24 + k) % 16) (fun t => f l (16 * (24 + k) + t.val))) ?_
      fun l => store16_loop_ok _ (hd l) fun n t => f l (16 * n + t.val)
  apply Sim.loop id
  intro k hk s
  rw [extract16_ok 384 f k (by omega), ok_bind]
  refine Sim.bind (π := id) ?_ fun a _ _ => ?_
  · have e : ∀ r, pack16 (fun g r c => (f r (384 * (0 : Fin 2).val + (16 * k + (4 * g.val + c.val)))).setWidth 32) r =
        fun t : Fin 16 => f r (16 * k + t.val) := fun r => funext fun t => by
      have := pack16_lane f hf (16 * k) r t
      simpa using this
    simp only [e]
    exact Sim.fourA
  · rw [extract16_ok 384 f k (by omega), ok_bind]
    have e : ∀ r, pack16 (fun g r c => (f r (384 * (1 : Fin 2).val + (16 * k + (4 * g.val + c.val)))).setWidth 32) r =
        fun t : Fin 16 => f r (16 * (24 + k) + t.val) := fun r => funext fun t => by
      have := pack16_lane f hf (16 * (24 + k)) r t
      rw [← this]
      congr 2
      funext g r c
      congr 2
      show 384 * 1 + _ = _
      omega
    simp only [e]
    exact Sim.fourA

end Saber.X4
