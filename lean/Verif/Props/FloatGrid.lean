import Verif.Props.FloatRayleigh
import Verif.Props.FloatWave
import Verif.Props.Solar
/-
The grid of a solar band in floating point.
-/
namespace Verif.Props
open Model Spec Lemmas PyNum XF
variable {F : FP}

/-- a band from `a` to `b` sampled with step `d`: at least 0.6 steps wide and at most a million -/
structure SolarBandFp (F : FP) (a b d : ℝ) : Prop where
  fa : IsFloat F a
  fb : IsFloat F b
  low : 0 ≤ a
  high : b ≤ 1e6
  step : 1e-6 ≤ d
  wide : 0.6 * d ≤ b - a
  many : b - a ≤ 1e6 * d

/-- `G` goes from `a` to `b`, ascending, within rounding of equal steps that differ from `d` by at
most a little more than half of it -/
def FpGrid (G : List ℝ) (a b d : ℝ) : Prop :=
  G.head? = some a ∧ G.getLast? = some b ∧ Increasing G ∧ (∀ x ∈ G, a ≤ x ∧ x ≤ b) ∧
  ∃ n : ℕ, 1 ≤ n ∧ G.length = n + 1 ∧ |(b - a) / n - d| ≤ 0.51 * d ∧
    ∀ i (hi : i < G.length), |G[i] - (a + i * ((b - a) / n))| ≤ b * 7 / 2 ^ 52

theorem u_bounds {u : ℝ} (hu : u = 1 / 2 ^ 52) : 0 < u ∧ u ≤ 1e-15 := by
  subst hu; constructor <;> norm_num

/-- the rounded number of steps -/
theorem fp_count {a b d : ℝ} (h : SolarBandFp F a b d) :
    ∃ (D : ℝ) (n : ℕ), F.rnd (b - a) = fin D ∧ |D - (b - a)| ≤ (b - a) / 2 ^ 52 ∧ 1 ≤ n ∧ n ≤ 1000001 ∧
      |(b - a) / n - d| ≤ 0.51 * d ∧
      regularGrid (α := RF F) (RF.of a) (RF.of b) (RF.of d) =
        .ok (NP.linspace (α := RF F) (RF.of a) (RF.of b) (n + 1)) := by
  obtain ⟨u, hu⟩ : ∃ u : ℝ, u = 1 / 2 ^ 52 := ⟨_, rfl⟩
  obtain ⟨hu0, hu1⟩ := u_bounds hu
  have hd := h.step
  have hw := h.wide
  have hm := h.many
  have hb := h.high
  have ha := h.low
  norm_num at hd hw hm hb hu1
  have hd0 : 0 < d := by linarith
  obtain ⟨D, eD, hD⟩ := F.rnd_near (b - a) (le_trans (show (1e-200 : ℝ) ≤ 1e-7 by norm_num) (by norm_num; linarith))
    (le_trans (show b - a ≤ (1e6 : ℝ) by norm_num; linarith) (by norm_num))
  have hD' : |D - (b - a)| ≤ (b - a) * u := by rw [hu]; convert hD using 1; ring
  obtain ⟨q, hq⟩ : ∃ q, q = (b - a) / d := ⟨_, rfl⟩
  have hq1 : 3 / 5 ≤ q := by rw [hq, le_div_iff₀ hd0]; linarith
  have hq2 : q ≤ 1000000 := by rw [hq, div_le_iff₀ hd0]; linarith
  have hqd : b - a = q * d := by rw [hq]; field_simp
  obtain ⟨q1, hq1e⟩ : ∃ q1, q1 = D / d := ⟨_, rfl⟩
  have hq1d : D = q1 * d := by rw [hq1e]; field_simp
  have hdiff : |q1 - q| ≤ q * u := by
    have e : D - (b - a) = (q1 - q) * d := by rw [hq1d, hqd]; ring
    rw [e, abs_mul, abs_of_pos hd0, hqd] at hD'
    have : |q1 - q| * d ≤ q * u * d := by linarith
    exact le_of_mul_le_mul_right this hd0
  obtain ⟨g1, g2⟩ := abs_le.1 hdiff
  have hqu : q * u ≤ 1000000 * (1 / 1000000000000000) := mul_le_mul hq2 hu1 hu0.le (by norm_num)
  norm_num at hqu
  obtain ⟨q2, eq2, hq2'⟩ := F.rnd_near q1 (le_trans (show (1e-200 : ℝ) ≤ 1e-7 by norm_num) (by norm_num; linarith))
    (le_trans (show q1 ≤ (1e7 : ℝ) by norm_num; linarith) (by norm_num))
  have hq2u : |q2 - q1| ≤ q1 * u := by rw [hu]; convert hq2' using 1; ring
  obtain ⟨g3, g4⟩ := abs_le.1 hq2u
  have hqu2 : q1 * u ≤ 1000001 * (1 / 1000000000000000) := mul_le_mul (by linarith) hu1 hu0.le (by norm_num)
  norm_num at hqu2
  have hr := abs_le.1 (Double.rintR_near q2)
  have hn1 : 1 ≤ rintR q2 := by
    have : (0 : ℝ) < (rintR q2 : ℝ) := by linarith
    have : (0 : ℤ) < rintR q2 := by exact_mod_cast this
    omega
  have hn2 : rintR q2 ≤ 1000001 := by
    have : (rintR q2 : ℝ) < 1000002 := by linarith
    have : rintR q2 < 1000002 := by exact_mod_cast this
    omega
  obtain ⟨n, hn⟩ : ∃ n : ℕ, rintR q2 = n := ⟨(rintR q2).toNat, by omega⟩
  rw [hn] at hr hn1 hn2
  have hnR : (1 : ℝ) ≤ n := by exact_mod_cast hn1
  refine ⟨D, n, eD, hD, by omega, by omega, ?_, ?_⟩
  · have hn0 : (0 : ℝ) < n := by linarith
    have e : (b - a) / n - d = (q - n) * d / n := by rw [hqd]; field_simp
    have hr1 := hr.1
    have hr2 := hr.2
    push_cast at hr1 hr2
    rw [e, abs_div, abs_mul, abs_of_pos hd0, abs_of_pos hn0, div_le_iff₀ hn0]
    have h5 : |q - n| ≤ 0.51 := by rw [abs_le]; norm_num; constructor <;> linarith
    have h6 : |q - n| * d ≤ 0.51 * d := mul_le_mul_of_nonneg_right h5 hd0.le
    have h7 : 0.51 * d * 1 ≤ 0.51 * d * n := mul_le_mul_of_nonneg_left hnR (by norm_num; linarith)
    linarith
  · unfold regularGrid
    have e1 : (RF.of b - RF.of a : RF F) = RF.of D := eD
    have e2 : (RF.of D / RF.of d : RF F) = RF.of q2 := by
      show F.rd (XF.div (fin D) (fin d)) = fin q2
      rw [← eq2, hq1e]
      have : XF.div (fin D) (fin d) = fin (D / d) := fin_div _ hd0.ne'
      rw [this]; rfl
    rw [e1, e2]
    have e3 : rint (RF.of q2 : RF F) = some (n : ℤ) := by
      show some (rintR q2) = _
      rw [hn]
    rw [e3]
    simp only
    rw [if_neg (by omega)]
    rfl

/-- one inner point of the grid -/
theorem fp_point {a b d D : ℝ} (h : SolarBandFp F a b d) (hD : |D - (b - a)| ≤ (b - a) / 2 ^ 52) {n i : ℕ}
    (hn : 1 ≤ n) (hn2 : n ≤ 1000001) (hi : i < n) :
    ∃ x : ℝ, (PyNum.ofInt (i : ℤ) * (RF.of D / PyNum.ofInt (((n + 1 : ℕ) : ℤ) - 1)) + RF.of a : RF F) = RF.of x ∧
      a ≤ x ∧ x ≤ b ∧ |x - (a + i * ((b - a) / n))| ≤ b * 7 / 2 ^ 52 ∧ (i = 0 → x = a) := by
  obtain ⟨u, hu⟩ : ∃ u : ℝ, u = 1 / 2 ^ 52 := ⟨_, rfl⟩
  obtain ⟨hu0, hu1⟩ := u_bounds hu
  have hd := h.step
  have hw := h.wide
  have hb := h.high
  have ha := h.low
  norm_num at hd hw hb hu1
  have hn0 : (0 : ℝ) < n := by exact_mod_cast (show 0 < n by omega)
  have hnR : (n : ℝ) ≤ 1000001 := by exact_mod_cast hn2
  have hn1R : (1 : ℝ) ≤ n := by exact_mod_cast hn
  have hbpos : 0 < b := by linarith
  have e0 : (PyNum.ofInt (((n + 1 : ℕ) : ℤ) - 1) : RF F) = RF.of n := by
    rw [show (((n + 1 : ℕ) : ℤ) - 1) = (n : ℤ) by push_cast; ring]
    exact lit_nat n (by omega)
  have e1 : (PyNum.ofInt (i : ℤ) : RF F) = RF.of i := lit_nat i (by omega)
  have hD' : |D - (b - a)| ≤ (b - a) * u := by rw [hu]; convert hD using 1; ring
  obtain ⟨g1, g2⟩ := abs_le.1 hD'
  have hΔ : 0 < b - a := by linarith
  have hΔu : (b - a) * u ≤ (b - a) * (1 / 1000000000000000) := mul_le_mul_of_nonneg_left hu1 hΔ.le
  have hD0 : 0 < D := by linarith
  -- the step
  have hs1 : (1e-200 : ℝ) ≤ D / n := by
    rw [le_div_iff₀ hn0]
    have : (1e-200 : ℝ) * n ≤ 1e-200 * 1000001 := mul_le_mul_of_nonneg_left hnR (by norm_num)
    refine this.trans (le_trans (show (1e-200 * 1000001 : ℝ) ≤ 1 / 10000000 by norm_num) ?_)
    linarith
  have hDle : D / n ≤ D := div_le_self hD0.le hn1R
  obtain ⟨s, es, hs⟩ := F.rnd_near (D / n) hs1 (le_trans hDle (le_trans (show D ≤ 1e7 by norm_num; linarith) (by norm_num)))
  have hs' : |s - D / n| ≤ D / n * u := by rw [hu]; convert hs using 1; ring
  obtain ⟨g3, g4⟩ := abs_le.1 hs'
  have hDn : 0 < D / n := div_pos hD0 hn0
  have hDnu : D / n * u ≤ D / n * (1 / 1000000000000000) := mul_le_mul_of_nonneg_left hu1 hDn.le
  have hs0 : 0 < s := by linarith
  have e2 : (RF.of D / RF.of n : RF F) = RF.of s := by
    show F.rd (XF.div (fin D) (fin (n : ℝ))) = fin s
    have : XF.div (fin D) (fin (n : ℝ)) = fin (D / n) := fin_div _ hn0.ne'
    rw [this]; exact es
  rw [e0, e1, e2]
  -- the product
  obtain ⟨t, ht⟩ : ∃ t, t = (b - a) / n := ⟨_, rfl⟩
  have htn : b - a = t * n := by rw [ht]; field_simp
  have ht0 : 0 < t := by rw [ht]; exact div_pos hΔ hn0
  have hDt : |D / n - t| ≤ t * u := by
    have : D / n - t = (D - (b - a)) / n := by rw [ht]; ring
    rw [this, abs_div, abs_of_pos hn0, div_le_iff₀ hn0]
    refine hD'.trans (le_of_eq ?_)
    rw [htn]; ring
  obtain ⟨g5, g6⟩ := abs_le.1 hDt
  have htu : t * u ≤ t * (1 / 1000000000000000) := mul_le_mul_of_nonneg_left hu1 ht0.le
  have hst : |s - t| ≤ t * (3 * u) := by
    have : D / n * u ≤ (2 * t) * u := mul_le_mul_of_nonneg_right (by linarith) hu0.le
    rw [abs_le]; constructor <;> linarith
  obtain ⟨g7, g8⟩ := abs_le.1 hst
  have hiR : (i : ℝ) + 1 ≤ n := by exact_mod_cast hi
  have hi0 : (0 : ℝ) ≤ i := Nat.cast_nonneg i
  obtain ⟨p, ep, hp0, hp⟩ : ∃ p, F.rnd (i * s) = fin p ∧ 0 ≤ p ∧ |p - i * t| ≤ i * t * (5 * u) ∧ (i = 0 → p = 0) := by
    rcases Nat.eq_zero_or_pos i with rfl | hipos
    · exact ⟨0, by simpa using rnd_zero F, le_rfl, by simp, fun _ => rfl⟩
    · have hi1 : (1 : ℝ) ≤ i := by exact_mod_cast hipos
      have his : s ≤ i * s := le_mul_of_one_le_left hs0.le hi1
      have hsb : s ≤ 2 * t := by linarith
      have hit : (i : ℝ) * t ≤ b - a := by rw [htn, mul_comm]; exact mul_le_mul_of_nonneg_left (by linarith) ht0.le
      have hisb : i * s ≤ 2 * (b - a) := by
        have := mul_le_mul_of_nonneg_left hsb hi0
        linarith
      have ht1 : (1e-14 : ℝ) ≤ t := by
        rw [ht, le_div_iff₀ hn0]
        have : (1e-14 : ℝ) * n ≤ 1e-14 * 1000001 := mul_le_mul_of_nonneg_left hnR (by norm_num)
        refine this.trans (le_trans (show (1e-14 * 1000001 : ℝ) ≤ 1 / 10000000 by norm_num) ?_)
        linarith
      have hst2 : t / 2 ≤ s := by linarith
      norm_num at ht1
      obtain ⟨p, ep, hp⟩ := F.rnd_near (i * s)
        (le_trans (show (1e-200 : ℝ) ≤ 1e-15 by norm_num) (by norm_num; linarith))
        (le_trans (show i * s ≤ (1e7 : ℝ) by norm_num; linarith) (by norm_num))
      have hp' : |p - i * s| ≤ i * s * u := by rw [hu]; convert hp using 1; ring
      have h1 : |i * s - i * t| ≤ i * t * (3 * u) := by
        rw [← mul_sub, abs_mul, abs_of_nonneg hi0, mul_assoc]
        exact mul_le_mul_of_nonneg_left hst hi0
      have h2 : i * s * u ≤ 2 * (i * t) * u := mul_le_mul_of_nonneg_right (by
        have := mul_le_mul_of_nonneg_left hsb hi0
        linarith) hu0.le
      have h3 : |p - i * t| ≤ i * t * (5 * u) := by
        have := abs_sub_le p (i * s) (i * t)
        linarith
      have h4 : i * t * (5 * u) ≤ i * t * 1 := mul_le_mul_of_nonneg_left (by linarith) (mul_nonneg hi0 ht0.le)
      exact ⟨p, ep, by linarith [(abs_le.1 h3).1], h3, fun h => by omega⟩
  obtain ⟨hp, hpz⟩ := hp
  have e3 : (RF.of i * RF.of s : RF F) = RF.of p := ep
  rw [e3]
  obtain ⟨g9, g10⟩ := abs_le.1 hp
  have hit : (i : ℝ) * t ≤ (b - a) - t := by
    have := mul_le_mul_of_nonneg_right hiR ht0.le
    linarith [htn]
  have hit0 : 0 ≤ (i : ℝ) * t := mul_nonneg hi0 ht0.le
  have hitu : (i : ℝ) * t * (5 * u) ≤ (b - a) * (5 * u) := mul_le_mul_of_nonneg_right (by linarith) (by linarith)
  have hsmall : (b - a) * (5 * u) ≤ t := by
    have h1 : t * n * (5 * u) ≤ t * 1000001 * (5 * (1 / 1000000000000000)) :=
      mul_le_mul (mul_le_mul_of_nonneg_left hnR ht0.le) (by linarith) (by linarith) (by positivity)
    rw [htn]
    linarith
  have hin : p + a ≤ b := by linarith
  obtain ⟨x, ex, hx1, hx2⟩ := rnd_within h.fa h.fb (show a ≤ p + a by linarith) hin
  refine ⟨x, ex, hx1, hx2, ?_, ?_⟩
  · obtain ⟨y, ey, hy⟩ := rnd_any (F := F) (p + a) (by
      rw [abs_of_nonneg (by linarith)]
      exact le_trans (show p + a ≤ (1e6 : ℝ) by norm_num; linarith) (by norm_num))
    have : y = x := by rw [ex] at ey; simpa using ey.symm
    subst this
    rw [abs_of_nonneg (show (0 : ℝ) ≤ p + a by linarith), div_eq_mul_one_div, ← hu] at hy
    have h0 : (p + a) * u ≤ b * u := mul_le_mul_of_nonneg_right hin hu0.le
    have h1 := abs_sub_le y (p + a) (a + i * t)
    have h2 : |p + a - (a + i * t)| ≤ (b - a) * (5 * u) := by
      rw [show p + a - (a + i * t) = p - i * t by ring]; exact hp.trans hitu
    have h3 : (b - a) * (5 * u) = b * (5 * u) - a * (5 * u) := by ring
    rw [← ht, div_eq_mul_one_div, ← hu]
    have h4 : 0 ≤ a * (5 * u) := by positivity
    have h5 : (2e-200 : ℝ) ≤ b * u := by
      have : (1 / 10000000 : ℝ) * u ≤ b * u := mul_le_mul_of_nonneg_right (by linarith) hu0.le
      refine le_trans ?_ this
      rw [hu]; norm_num
    linarith
  · intro hz
    have : p = 0 := hpz hz
    rw [this, zero_add, h.fa] at ex
    simpa using ex.symm

theorem gaps_range (f : ℕ → ℝ) : ∀ n k, (∀ i, k ≤ i → i < k + n → 1e-20 ≤ f (i + 1) - f i ∧ f (i + 1) - f i ≤ 1e9) →
    Gaps ((List.range' k (n + 1)).map f)
  | 0, k, _ => by simp [Gaps]
  | n + 1, k, h => by
    have ih := gaps_range f n (k + 1) fun i h1 h2 => h i (by omega) (by omega)
    rw [List.range'_succ, List.map_cons]
    rw [List.range'_succ, List.map_cons] at ih ⊢
    exact ⟨h k le_rfl (by omega), ih⟩

theorem gaps_increasing {w : List ℝ} (h : Gaps w) : Increasing w := by
  have : w.IsChain (· < ·) := by
    induction w with
    | nil => exact .nil
    | cons a w ih =>
      cases w with
      | nil => exact .singleton a
      | cons b w =>
        have := h.1.1
        norm_num at this
        exact .cons_cons (by linarith) (ih h.2)
  exact List.isChain_iff_pairwise.1 this

/-- the grid of a band -/
theorem fp_grid {a b d : ℝ} (h : SolarBandFp F a b d) :
    ∃ G : List ℝ, FpGrid G a b d ∧ Gaps G ∧ G.length ≤ 2 ^ 20 ∧
      regularGrid (α := RF F) (RF.of a) (RF.of b) (RF.of d) = .ok (G.map RF.of) := by
  obtain ⟨D, n, eD, hD, hn1, hn2, hstep, hgrid⟩ := fp_count h
  have hn0 : (0 : ℝ) < n := by exact_mod_cast (show 0 < n by omega)
  have hb1 := h.high
  have hs1 := h.step
  have hw := h.wide
  have ha := h.low
  norm_num at hb1 hs1 hw
  have key : ∀ i : ℕ, ∃ x : ℝ, (i < n →
      (PyNum.ofInt (i : ℤ) * (RF.of D / PyNum.ofInt (((n + 1 : ℕ) : ℤ) - 1)) + RF.of a : RF F) = RF.of x) ∧
      (a ≤ x ∧ x ≤ b) ∧ (i ≤ n → |x - (a + i * ((b - a) / n))| ≤ b * 7 / 2 ^ 52) ∧ (i = 0 → x = a) ∧ (i = n → x = b) := by
    intro i
    by_cases hi : i < n
    · obtain ⟨x, h1, h2, h3, h4, h5⟩ := fp_point h hD hn1 hn2 hi
      exact ⟨x, fun _ => h1, ⟨h2, h3⟩, fun _ => h4, h5, fun hc => by omega⟩
    · refine ⟨b, fun hc => absurd hc hi, ⟨by linarith, le_rfl⟩, fun hc => ?_, fun hc => by omega, fun _ => rfl⟩
      have : i = n := by omega
      subst this
      rw [show b - (a + i * ((b - a) / i)) = 0 by field_simp; ring, abs_zero]
      have : 0 ≤ b := by linarith
      positivity
  choose f hf hin hacc hzero hlast using key
  have hgaps : Gaps ((List.range (n + 1)).map f) := by
    rw [List.range_eq_range']
    refine gaps_range f n 0 fun i _ hi => ?_
    have h1 := abs_le.1 (hacc i (by omega))
    have h2 := abs_le.1 (hacc (i + 1) (by omega))
    have h3 := abs_le.1 hstep
    have h4 : b * 7 / 2 ^ 52 ≤ 1 / 100000000 := by
      rw [div_le_iff₀ (by positivity)]
      norm_num; linarith
    push_cast at h2
    norm_num at h3
    obtain ⟨p1, p2⟩ := h1
    obtain ⟨q1, q2⟩ := h2
    obtain ⟨r1, r2⟩ := h3
    norm_num
    constructor <;> linarith
  refine ⟨(List.range (n + 1)).map f, ⟨?_, ?_, gaps_increasing hgaps, ?_, n, hn1, by simp, hstep, ?_⟩, hgaps, ?_, ?_⟩
  · simp [List.head?_range, hzero]
  · simp [List.getLast?_range, hlast]
  · intro x hx
    obtain ⟨i, _, rfl⟩ := List.mem_map.1 hx
    exact hin i
  · intro i hi
    simp only [List.getElem_map, List.getElem_range]
    exact hacc i (by simp at hi; omega)
  · simp; omega
  · rw [hgrid]
    unfold NP.linspace
    rw [if_neg (by omega), List.map_map]
    congr 1
    refine List.map_congr_left fun i hi => ?_
    have hi' : i < n + 1 := by simpa using hi
    by_cases hc : i + 1 = n + 1
    · rw [if_pos hc]
      show RF.of b = RF.of (f i)
      rw [hlast i (by omega)]
    · rw [if_neg hc]
      have e : (RF.of b - RF.of a : RF F) = RF.of D := eD
      rw [e]
      exact hf i (by omega)

end Verif.Props
