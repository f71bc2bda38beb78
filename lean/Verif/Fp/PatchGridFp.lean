import Verif.Fp.PatchError
import Verif.Swage.PatchKeyTheorems

/-!
# C93: patches of a rectilinear grid in rounded arithmetic
-/

namespace Verif.Swage.Key
open Verif.Swage Verif.Fp

variable (R : Rounding)

theorem min_rel {a a' b b' k : ℝ} (k0 : 0 ≤ k) (k1 : k ≤ 1) (ha : |a' - a| ≤ k * a) (hb : |b' - b| ≤ k * b) : |min a' b' - min a b| ≤ k * min a b := by
  obtain ⟨a1, a2⟩ := abs_le.1 ha
  obtain ⟨b1, b2⟩ := abs_le.1 hb
  have m1 : min ((1 - k) * a) ((1 - k) * b) = (1 - k) * min a b := (mul_min_of_nonneg a b (by linarith)).symm
  have m2 : min ((1 + k) * a) ((1 + k) * b) = (1 + k) * min a b := (mul_min_of_nonneg a b (by linarith)).symm
  have n1 : min ((1 - k) * a) ((1 - k) * b) ≤ min a' b' := min_le_min (by linarith) (by linarith)
  have n2 : min a' b' ≤ min ((1 + k) * a) ((1 + k) * b) := min_le_min (by linarith) (by linarith)
  rw [m1] at n1
  rw [m2] at n2
  rw [abs_le]; constructor <;> linarith

theorem loop_min_rel {f g : ℕ → ℝ} {s t k : ℝ} (k0 : 0 ≤ k) (k1 : k ≤ 1) (hs : |t - s| ≤ k * s) : ∀ n, (∀ i < n, |g i - f i| ≤ k * f i) →
    |loop n (fun i m => min (g i) m) t - loop n (fun i m => min (f i) m) s| ≤ k * loop n (fun i m => min (f i) m) s := by
  intro n
  induction n with
  | zero => exact fun _ => hs
  | succ n ih =>
    intro h
    rw [loop_succ, loop_succ]
    exact min_rel k0 k1 (h n (by omega)) (ih fun i hi => h i (by omega))

theorem distMinR_near (hu : R.u ≤ 1 / 2 ^ 20) (C : ℕ) (hC : 0 < C) (nodes : ℕ → ℕ → ℕ) (x : ℕ → ℕ → ℝ) (junk : ℕ → ℝ) (j : ℝ) :
    |distMinR R C nodes x junk j - distMin C nodes x junk j| ≤ 8 * R.u * distMin C nodes x junk j := by
  have u0 := R.u_nonneg
  have hl : distMinR R C nodes x junk j = cellDistMinR R (fun l d => x (nodes (C - 1) l) d) junk := by
    obtain ⟨m, rfl⟩ : ∃ m, C = m + 1 := ⟨C - 1, by omega⟩
    unfold distMinR
    rw [loop_succ]; simp
  rw [hl, distMin_last C nodes x junk j hC]
  have hf : ∀ i < 28, |(Refine.distLoopR R (fun l d => x (nodes (C - 1) l) d) junk).2 i - (distLoop (fun l d => x (nodes (C - 1) l) d) junk).2 i| ≤
      8 * R.u * (distLoop (fun l d => x (nodes (C - 1) l) d) junk).2 i := by
    intro i hi
    rw [Refine.distLoopR_val R _ junk i hi, distLoop_val _ junk i hi]
    exact Refine.dist1R_near R hu _ _ _
  norm_num at hu
  exact loop_min_rel (by linarith) (by linarith) (hf 0 (by omega)) 28 hf

/-- The literal `1.0e64` plays no role if all coordinates are smaller. -/
theorem coordR_eq (hu : R.u ≤ 1 / 2 ^ 20) {N : ℕ} (hN : 0 < N) {x : ℕ → ℕ → ℝ} {A : ℝ} (hA : A ≤ 10 ^ 15) (d : ℕ) (hx : ∀ n < N, |x n d| ≤ A) :
    coordMinR R N x d = coordMin N x d ∧ coordMaxR R N x d = coordMax N x d ∧ |coordMin N x d| ≤ A ∧ |coordMax N x d| ≤ A := by
  have u0 := R.u_nonneg
  have hF : (10 : ℝ) ^ 15 ≤ R.fl (10 ^ 64) := by
    have h1 := R.err (10 ^ 64)
    rw [abs_of_nonneg (by positivity : (0 : ℝ) ≤ 10 ^ 64)] at h1
    have := (abs_le.1 h1).1
    norm_num at this hu ⊢
    nlinarith
  have hG : (10 : ℝ) ^ 15 ≤ 10 ^ 64 := by norm_num
  have h00 := abs_le.1 (hx 0 hN)
  unfold coordMinR coordMin coordMaxR coordMax
  generalize R.fl (10 ^ 64) = F at *
  generalize (10 : ℝ) ^ 15 = U at *
  have key : ∀ m, m + 1 ≤ N → ∀ G H : ℝ, A ≤ G → A ≤ H → loop (m + 1) (fun n m => min m (x n d)) G = loop (m + 1) (fun n m => min m (x n d)) H ∧
      loop (m + 1) (fun n m => max m (x n d)) (-G) = loop (m + 1) (fun n m => max m (x n d)) (-H) ∧
      |loop (m + 1) (fun n m => min m (x n d)) G| ≤ A ∧ |loop (m + 1) (fun n m => max m (x n d)) (-G)| ≤ A := by
    intro m
    induction m with
    | zero =>
      intro _ G H g h
      simp only [loop]
      rw [min_eq_right (by linarith), min_eq_right (by linarith), max_eq_right (by linarith), max_eq_right (by linarith)]
      exact ⟨rfl, rfl, hx 0 hN, hx 0 hN⟩
    | succ m ih =>
      intro hm G H g h
      obtain ⟨e1, e2, e3, e4⟩ := ih (by omega) G H g h
      have hm1 := hx (m + 1) (by omega)
      rw [loop_succ (m + 1), loop_succ (m + 1), loop_succ (m + 1), loop_succ (m + 1), e1, e2]
      rw [e1] at e3
      rw [e2] at e4
      refine ⟨rfl, rfl, ?_, ?_⟩
      · rcases min_choice (loop (m + 1) (fun n m => min m (x n d)) H) (x (m + 1) d) with h | h <;> rw [h] <;> assumption
      · rcases max_choice (loop (m + 1) (fun n m => max m (x n d)) (-H)) (x (m + 1) d) with h | h <;> rw [h] <;> assumption
  obtain ⟨m, rfl⟩ : ∃ m, N = m + 1 := ⟨N - 1, by omega⟩
  obtain ⟨k1, k2, k3, k4⟩ := key m le_rfl F (10 ^ 64) (by linarith) (by linarith)
  rw [k1] at k3
  rw [k2] at k4
  exact ⟨k1, k2, k3, k4⟩

/-- `node_hash_delta` up to a relative error `10u`. -/
theorem deltaR_near (hu : R.u ≤ 1 / 2 ^ 20) (C : ℕ) (hC : 0 < C) (nodes : ℕ → ℕ → ℕ) (x : ℕ → ℕ → ℝ) (junk : ℕ → ℝ) (j : ℝ)
    (h0 : 0 < distMin C nodes x junk j) (hS : distMin C nodes x junk j ≤ 10 ^ 16) :
    delta C nodes x junk j = distMin C nodes x junk j / 3 ∧ |deltaR R C nodes x junk j - delta C nodes x junk j| ≤ 10 * R.u * delta C nodes x junk j := by
  have u0 := R.u_nonneg
  have h := distMinR_near R hu C hC nodes x junk j
  unfold deltaR delta
  have hF : (10 : ℝ) ^ 17 ≤ R.fl (10 ^ 64) := by
    have h1 := R.err (10 ^ 64)
    rw [abs_of_nonneg (by positivity : (0 : ℝ) ≤ 10 ^ 64)] at h1
    have := (abs_le.1 h1).1
    norm_num at this hu ⊢
    nlinarith
  have hG : (10 : ℝ) ^ 16 ≤ 10 ^ 64 := by norm_num
  have hG' : (10 : ℝ) ^ 17 = 10 * 10 ^ 16 := by norm_num
  rw [hG'] at hF
  have U0 : (0 : ℝ) < 10 ^ 16 := by positivity
  generalize R.fl (10 ^ 64) = F at *
  generalize (10 : ℝ) ^ 64 = G at *
  generalize (10 : ℝ) ^ 16 = U at *
  norm_num at hu
  generalize distMin C nodes x junk j = m at *
  generalize distMinR R C nodes x junk j = m' at *
  have a1 := mul_nonneg u0 h0.le
  have hm' := abs_le.1 h
  have a2 : R.u * m ≤ 1 / 1048576 * m := mul_le_mul_of_nonneg_right hu h0.le
  rw [min_eq_right (hS.trans hG), min_eq_right (by linarith)]
  refine ⟨rfl, ?_⟩
  have e : |m' / 3 - m / 3| ≤ 8 * R.u * (m / 3) := by
    rw [← sub_div, abs_div, abs_of_pos (by norm_num : (0 : ℝ) < 3)]
    linarith
  refine (Refine.fl_near R e).trans ?_
  rw [abs_of_pos (by positivity)]
  have a3 := mul_le_mul_of_nonneg_right hu a1
  linarith

/-- Distance of the vertices of the last cell of a grid. -/
theorem grid_dist_ge {C N : ℕ} {nodes : ℕ → ℕ → ℕ} {x : ℕ → ℕ → ℝ} {X : ℕ → ℤ → ℝ} {pos : ℕ → ℕ → ℤ}
    (hL : Grid C N nodes x X pos) {s : ℝ} (hs : ∀ d < 3, s ≤ X d (pos (C - 1) d + 1) - X d (pos (C - 1) d))
    (junk : ℕ → ℝ) (j : ℝ) : s ≤ distMin C nodes x junk j := by
  have hC := hL.ne
  rw [distMin_last C nodes x junk j hC]
  apply le_cellDistMin
  intro b h2 a h1
  obtain ⟨d, hd, hne⟩ := bit_ne b h2 a h1
  have la := bit_le a (by omega) d hd
  have lb := bit_le b h2 d hd
  have hw := hs d hd
  have hcoord : ∀ l < 8, x (nodes (C - 1) l) d = X d (pos (C - 1) d) + (X d (pos (C - 1) d + 1) - X d (pos (C - 1) d)) * (bit l d : ℝ) := by
    intro l hl
    rw [hL.coords (C - 1) (by omega) l hl d hd, X_bit X d _ (bit_le l hl d hd)]
  have hge : s ≤ |x (nodes (C - 1) b) d - x (nodes (C - 1) a) d| := by
    rw [hcoord a (by omega), hcoord b h2]
    have hc : (bit a d = 0 ∧ bit b d = 1) ∨ (bit a d = 1 ∧ bit b d = 0) := by omega
    rcases hc with ⟨e1, e2⟩ | ⟨e1, e2⟩
    · rw [e1, e2]; push_cast
      refine le_trans ?_ (le_abs_self _); linarith
    · rw [e1, e2]; push_cast
      refine le_trans ?_ (neg_le_abs _); linarith
  refine hge.trans ?_
  unfold dist1
  refine le_trans ?_ (le_abs_self _)
  apply Real.le_sqrt_of_sq_le
  rw [sq_abs]
  have q0 := sq_nonneg (x (nodes (C - 1) b) 0 - x (nodes (C - 1) a) 0)
  have q1 := sq_nonneg (x (nodes (C - 1) b) 1 - x (nodes (C - 1) a) 1)
  have q2 := sq_nonneg (x (nodes (C - 1) b) 2 - x (nodes (C - 1) a) 2)
  interval_cases d <;> linarith

theorem max_near {a b x y e : ℝ} (h1 : |a - x| ≤ e) (h2 : |b - y| ≤ e) : |max a b - max x y| ≤ e := by
  obtain ⟨p1, p2⟩ := abs_le.1 h1
  obtain ⟨q1, q2⟩ := abs_le.1 h2
  rw [abs_le]
  constructor
  · have : max x y ≤ max a b + e := max_le (by linarith [le_max_left a b]) (by linarith [le_max_right a b])
    linarith
  · have : max a b ≤ max x y + e := max_le (by linarith [le_max_left x y]) (by linarith [le_max_right x y])
    linarith

section
variable {C N : ℕ} {nodes : ℕ → ℕ → ℕ} {x : ℕ → ℕ → ℝ}

/-- The rounded number of a side against the exact one. -/
theorem hash1R_near (hu : R.u ≤ 1 / 2 ^ 20) (hv : ∀ c < C, ∀ l < 8, nodes c l < N) {A δ δ' : ℝ} (hA : 1 / 10 ^ 11 ≤ A) (hA2 : A ≤ 10 ^ 15)
    (hx : ∀ n < N, ∀ d < 3, |x n d| ≤ A) (hδ : 0 < δ) (hδ' : |δ' - δ| ≤ 10 * R.u * δ) (hg : 3 * δ ≤ 2 * A) {c p : ℕ} (hc : c < C) (hp : p < 6) :
    |hash1R R N nodes x δ' c p - hash1 N nodes x δ c p| ≤ 80 * R.u * (2.1 * (A / δ)) ^ 3 := by
  have u0 := R.u_nonneg
  have hN : 0 < N := by have := hv c hc 0 (by omega); omega
  have hA0 : 0 ≤ A := le_trans (by positivity) hA
  have hg' : 1.5 ≤ A / δ := by rw [le_div_iff₀ hδ]; norm_num; linarith
  have hB : 3 ≤ 2.1 * (A / δ) := by norm_num at hg' ⊢; linarith
  have r0 : 0 ≤ A / δ := by positivity
  have ur := mul_nonneg u0 r0
  have bins : ∀ d < 3, |numBinsR R N x δ' d - numBins N x δ d| ≤ 17 * R.u * (2.1 * (A / δ)) ∧ |numBins N x δ d| ≤ 2.1 * (A / δ) := by
    intro d hd
    obtain ⟨e1, e2, e3, e4⟩ := coordR_eq R hu hN hA2 d (fun n hn => hx n hn d hd)
    unfold numBinsR numBins
    rw [e1, e2]
    obtain ⟨n1, n2⟩ := numer_near R hu hA e4 e3 (y' := coordMax N x d) (by rw [sub_self, abs_zero]; positivity)
    obtain ⟨q1, q2⟩ := quot_near R hu hA0 hδ hδ' n1 n2
    exact ⟨q1.trans (by norm_num; linarith), q2⟩
  have idx : ∀ d < 3, |hashIdxR R N nodes x δ' c p d - hashIdx N nodes x δ c p d| ≤ 17 * R.u * (2.1 * (A / δ)) ∧
      |hashIdx N nodes x δ c p d| ≤ 2.1 * (A / δ) := by
    intro d hd
    obtain ⟨e1, e2, e3, e4⟩ := coordR_eq R hu hN hA2 d (fun n hn => hx n hn d hd)
    obtain ⟨y1, y2⟩ := sideCoordR_near R hu hA0 (c := c) (p := p) (d := d) (nodes := nodes) (x := x)
      (fun q hq => hx _ (hv c hc _ (table_lt p hp q hq)) d hd)
    unfold hashIdxR hashIdx
    rw [e1]
    obtain ⟨n1, n2⟩ := numer_near R hu hA y2 e3 y1
    obtain ⟨q1, q2⟩ := quot_near R hu hA0 hδ hδ' n1 n2
    have l := R.err (1 / 10 ^ 16)
    rw [abs_of_nonneg (by positivity : (0 : ℝ) ≤ 1 / 10 ^ 16)] at l
    constructor
    · refine max_near (l.trans ?_) (q1.trans ?_)
      · have := mul_le_mul_of_nonneg_left hg' u0
        norm_num at this ⊢
        linarith
      · norm_num; linarith
    · have m0 : (0 : ℝ) ≤ max (1 / 10 ^ 16) ((sideCoord nodes x c p d - coordMin N x d + 1 / 10 ^ 12) / δ) := le_trans (by positivity) (le_max_left _ _)
      rw [abs_of_nonneg m0]
      exact max_le (le_trans (by norm_num) hB) ((le_abs_self _).trans q2)
  unfold hash1R hash1
  exact hash_near R hu hB (idx 0 (by omega)).1 (idx 1 (by omega)).1 (idx 2 (by omega)).1 (bins 0 (by omega)).1 (bins 1 (by omega)).1
    (idx 0 (by omega)).2 (idx 1 (by omega)).2 (idx 2 (by omega)).2 (bins 0 (by omega)).2 (bins 1 (by omega)).2

variable {X : ℕ → ℤ → ℝ} {pos : ℕ → ℕ → ℤ}

/-- On a grid the rounded keys tell the centroids apart. -/
theorem Grid.keyR_iff (hL : Grid C N nodes x X pos) (hu : R.u ≤ 1 / 2 ^ 20) {A s : ℝ} (hA : 1 / 10 ^ 11 ≤ A) (hA2 : A ≤ 10 ^ 15)
    (hx : ∀ n < N, ∀ d < 3, |x n d| ≤ A) (s0 : 0 < s) (hs : ∀ d < 3, s ≤ X d (pos (C - 1) d + 1) - X d (pos (C - 1) d))
    (hsz : 2 ^ 21 * R.u * A ^ 3 ≤ s ^ 3) (junk : ℕ → ℝ) (j : ℝ) {c p c' p' : ℕ}
    (hc : c < C) (hp : p < 6) (hc' : c' < C) (hp' : p' < 6) :
    keyR R C N nodes x junk j (6 * c + p) = keyR R C N nodes x junk j (6 * c' + p') ↔ ∀ d < 3, mid pos c p d = mid pos c' p' d := by
  have u0 := R.u_nonneg
  obtain ⟨m0, m1⟩ := hL.dist junk j
  have m2 := grid_dist_ge hL hs junk j
  have hbox : ∀ d < 2, distMin C nodes x junk j ≤ coordMax N x d - coordMin N x d := fun d hd => (m1 d (by omega)).trans (hL.box d (by omega))
  have hN : 0 < N := by have := hL.valid c hc 0 (by omega); omega
  have hA0 : 0 < A := lt_of_lt_of_le (by positivity) hA
  have hm2A : distMin C nodes x junk j ≤ 2 * A := by
    obtain ⟨-, -, e3, e4⟩ := coordR_eq R hu hN hA2 0 (fun n hn => hx n hn 0 (by omega))
    have := hbox 0 (by omega)
    have := abs_le.1 e3
    have := abs_le.1 e4
    linarith
  obtain ⟨d1, d2⟩ := deltaR_near R hu C hL.ne nodes x junk j m0 (by norm_num at hA2 ⊢; linarith)
  obtain ⟨δ0, δ3⟩ := delta_pos m0
  have near : ∀ c < C, ∀ p < 6, |hash1R R N nodes x (deltaR R C nodes x junk j) c p - hash1 N nodes x (delta C nodes x junk j) c p| ≤ 0.02 := by
    intro c hc p hp
    refine (hash1R_near R hu hL.valid hA hA2 hx δ0 d2 (by linarith) hc hp).trans ?_
    rw [d1]
    have s1 : A / (distMin C nodes x junk j / 3) ≤ 3 * (A / s) := by
      rw [div_div_eq_mul_div, ← mul_div_assoc, mul_comm A 3]
      exact div_le_div_of_nonneg_left (by positivity) s0 m2
    have s2 : (2.1 * (A / (distMin C nodes x junk j / 3))) ^ 3 ≤ (2.1 * (3 * (A / s))) ^ 3 := by
      have : 0 ≤ A / (distMin C nodes x junk j / 3) := by positivity
      exact pow_le_pow_left₀ (by positivity) (by linarith) 3
    have s3 : 2 ^ 21 * (R.u * (A / s) ^ 3) ≤ 1 := by
      rw [div_pow, ← mul_div_assoc, ← mul_div_assoc, div_le_one (by positivity)]
      linarith
    have s4 : (2.1 * (3 * (A / s))) ^ 3 = 2.1 ^ 3 * 27 * (A / s) ^ 3 := by ring
    rw [s4] at s2
    have s5 := mul_le_mul_of_nonneg_left s2 u0
    generalize (2.1 * (A / (distMin C nodes x junk j / 3))) ^ 3 = P at s5 ⊢
    generalize (A / s) ^ 3 = Q at s3 s5
    norm_num at s3 s5 ⊢
    linarith
  constructor
  · intro hk
    by_contra hne
    have hne' : ¬ ∀ d < 3, sideCoord nodes x c p d = sideCoord nodes x c' p' d := fun h =>
      hne fun d hd => (hL.sideCoord_iff hc hp hc' hp' hd).1 (h d hd)
    have hsep := hL.sep junk j
    obtain ⟨z1, g⟩ := hash_gap C N nodes hL.valid x _ _ δ0 δ3 hbox hsep c p c' p' hc hp hc' hp'
    have z2 := (hash_gap C N nodes hL.valid x _ _ δ0 δ3 hbox hsep c' p' c p hc' hp' hc hp).1
    unfold keyR at hk
    rw [show (6 * c + p) / 6 = c by omega, show (6 * c + p) % 6 = p by omega,
      show (6 * c' + p') / 6 = c' by omega, show (6 * c' + p') % 6 = p' by omega] at hk
    have n1 := abs_le.1 (near c hc p hp)
    have n2 := abs_le.1 (near c' hc' p' hp')
    have flt : ∀ a b : ℝ, a + 1 ≤ b → 1 ≤ b → ⌊a⌋₊ < ⌊b⌋₊ := fun a b h h1 => by
      rcases lt_or_ge a 0 with h0 | h0
      · rw [Nat.floor_of_nonpos h0.le]; exact Nat.floor_pos.2 h1
      · have h2 := Nat.floor_le_floor h
        rw [Nat.floor_add_one h0] at h2
        omega
    norm_num at n1 n2
    rcases g hne' with h | h <;> norm_num at h
    · exact absurd hk (flt _ _ (by linarith [n1.2, n2.1]) (by linarith [n2.1])).ne
    · exact absurd hk (flt _ _ (by linarith [n1.1, n2.2]) (by linarith [n1.1])).ne'
  · intro h
    have hn := (hL.nodes_of_mid hc hp hc' hp' h).2
    have hside : ∀ d, sideCoordR R nodes x c p d = sideCoordR R nodes x c' p' d := fun d => by
      rw [sideCoordR_eq, sideCoordR_eq, hn 0 (by omega), hn 1 (by omega), hn 2 (by omega), hn 3 (by omega)]
    unfold keyR
    rw [show (6 * c + p) / 6 = c by omega, show (6 * c + p) % 6 = p by omega,
      show (6 * c' + p') / 6 = c' by omega, show (6 * c' + p') % 6 = p' by omega]
    unfold hash1R hashIdxR
    simp only [hside]

end

end Verif.Swage.Key
