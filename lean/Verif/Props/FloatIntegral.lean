import Verif.Props.ReaderOps
import Verif.Props.FloatWave
import Verif.Props.FloatSolar
import Verif.Base.Double
/-
Property C177: the accuracy of the band integrals in floating point.
-/
namespace Verif.Props
open XF Model PyNum Lemmas Spec

/-- a detector whose arrays hold these wavelengths and responses, both floating point numbers; the
wavelengths increase, and the responses are nothing or of moderate size -/
structure FpDetector {F : FP} (det : DetRsr (RF F)) (c : Curve) : Prop where
  wave : det.get? "wavelength" = some (.arr (c.map fun p => RF.of p.1))
  resp : det.get? "response" = some (.arr (c.map fun p => RF.of p.2))
  gaps : Gaps (c.map Prod.fst)
  size : ∀ p ∈ c, p.2 = 0 ∨ (1e-50 ≤ p.2 ∧ p.2 ≤ 1e20)
  few : c.length ≤ 2 ^ 20

/-- the computed integral of one detector -/
theorem trapezoid_accuracy {F : FP} (c : Curve) (gaps : Gaps (c.map Prod.fst))
    (size : ∀ p ∈ c, p.2 = 0 ∨ (1e-50 ≤ p.2 ∧ p.2 ≤ 1e20)) (few : c.length ≤ 2 ^ 20) :
    ∃ v : ℝ, NP.trapezoid (c.map fun p => (RF.of p.2 : RF F)) (c.map fun p => RF.of p.1) = .ok (RF.of v) ∧
      |v - trap (c.map Prod.fst) (c.map Prod.snd)| ≤
        trap (c.map Prod.fst) (c.map Prod.snd) * ((4 + 2 * c.length) / 2 ^ 50) := by
  have hu := uu_small
  have hu0 := uu_pos
  norm_num at hu
  have hl : (c.length : ℝ) ≤ 1048576 := by exact_mod_cast few
  have hl0 : (0 : ℝ) ≤ c.length := Nat.cast_nonneg _
  have hNu : (c.length : ℝ) * uu ≤ 1048576 * uu := mul_le_mul_of_nonneg_right hl hu0.le
  have hN0 : 0 ≤ (c.length : ℝ) * uu := by positivity
  have f : List.Forall₂ (fun (x : RF F) (y : ℝ) => In0 1e-170 1e50 y ∧ Near0 0 x y)
      (c.map fun p => RF.of p.2) (c.map Prod.snd) := by
    rw [List.forall₂_map_left_iff, List.forall₂_map_right_iff, List.forall₂_same]
    intro p hp
    rcases size p hp with e | ⟨e1, e2⟩
    · rw [e]; exact ⟨Or.inl rfl, Or.inl ⟨rfl, rfl⟩⟩
    · exact ⟨Or.inr ⟨le_trans (by norm_num) e1, le_trans e2 (by norm_num)⟩,
        Or.inr (near_refl (lt_of_lt_of_le (by norm_num) e1))⟩
  obtain ⟨n, _⟩ := trapVal_near F le_rfl (by norm_num) gaps f (by simpa using few)
  rw [List.length_map] at n
  obtain ⟨v, ev, hv⟩ := near0_abs n (by positivity) (by norm_num; linarith)
  refine ⟨v, ?_, ?_⟩
  · rw [trapezoid_val _ _ (by simp)]
    have e : c.map (fun p => (RF.of p.1 : RF F)) = (c.map Prod.fst).map RF.of := by
      rw [List.map_map]; rfl
    rw [e, ev]; rfl
  · refine hv.trans (le_of_eq ?_)
    unfold uu; ring

/-- C177: `integral` in floating point has exactly the band's detectors as keys, and each value differs
from the trapezoid integral of response over wavelength by at most the fraction `(4 + 2 n)/2^50` of it,
`n` the number of samples of this detector. -/
theorem C177_integral_accuracy (F : FP) (r : Reader (RF F)) (name : String) (B : BandRsr (RF F))
    (hB : rsrDictGetItem r.instrument r.rsr name = .ok B) (hwf : B.WF)
    (hc : ∀ p ∈ B, ∃ c : Curve, FpDetector p.2 c) :
    ∃ out, r.integral name = .ok out ∧ out.keys = B.keys ∧
      ∀ d det (c : Curve), B.get? d = some det → FpDetector det c →
        ∃ v : ℝ, out.get? d = some (RF.of v) ∧
          |v - trap (c.map Prod.fst) (c.map Prod.snd)| ≤
            trap (c.map Prod.fst) (c.map Prod.snd) * ((4 + 2 * c.length) / 2 ^ 50) := by
  obtain ⟨g, hg⟩ : ∃ g : String → Py (RF F), g = (fun det => do
    let d ← B.getItem det
    let wvl ← getArr d "wavelength"
    let resp ← getArr d "response"
    NP.trapezoid resp wvl) := ⟨_, rfl⟩
  have hval : ∀ d det (c : Curve), B.get? d = some det → FpDetector det c →
      g d = NP.trapezoid (c.map fun p => (RF.of p.2 : RF F)) (c.map fun p => RF.of p.1) := by
    intro d det c hd hcur
    rw [hg]
    simp only
    rw [getItem_ok_iff.2 hd]
    simp only [bind, Except.bind]
    have ga : ∀ k xs, det.get? k = some (.arr xs) → getArr det k = .ok xs := by
      intro k xs hk
      unfold getArr
      rw [getItem_ok_iff.2 hk]; rfl
    rw [ga _ _ hcur.wave, ga _ _ hcur.resp]
  have hrun : r.integral name = storeAll g B.keys [] := by
    unfold Reader.integral storeAll
    rw [hB]
    simp only [bind, Except.bind]
    congr 1
    funext out d
    rw [hg]
    simp only [bind, Except.bind]
    cases B.getItem d with
    | error e => rfl
    | ok det =>
      simp only
      cases getArr det "wavelength" with
      | error e => rfl
      | ok w =>
        simp only
        cases getArr det "response" <;> rfl
  obtain ⟨out, hout⟩ := storeAll_succeeds g B.keys (by
    intro k hk
    obtain ⟨p, hp, rfl⟩ := List.mem_map.1 hk
    obtain ⟨c, hcur⟩ := hc p hp
    obtain ⟨v, hv, _⟩ := trapezoid_accuracy (F := F) c hcur.gaps hcur.size hcur.few
    exact ⟨_, (hval p.1 p.2 c (get?_of_mem hwf hp) hcur).trans hv⟩) []
  obtain ⟨h1, _, h3, _, h5⟩ := storeAll_ok g B.keys [] out hout
  refine ⟨out, hrun.trans hout, ?_, ?_⟩
  · rw [h5 hwf (by simp [Dict.keys])]; rfl
  · intro d det c hd hcur
    obtain ⟨v, hv, hb⟩ := trapezoid_accuracy (F := F) c hcur.gaps hcur.size hcur.few
    refine ⟨v, ?_, hb⟩
    have hm : d ∈ B.keys := by
      by_contra hcon; rw [get?_eq_none_iff.2 hcon] at hd; cases hd
    obtain ⟨v', hv', hget⟩ := h1 d hm
    rw [hval d det c hd hcur, hv] at hv'
    cases hv'; exact hget

/-- a detector with three samples -/
noncomputable def exIntegralDet : DetRsr (RF Double.fp) :=
  [("wavelength", .arr [RF.of 0.5, RF.of 0.75, RF.of 1]), ("response", .arr [RF.of 0, RF.of 1, RF.of 0.5])]

noncomputable def exIntegralReader : Reader (RF Double.fp) where
  filename := ("/data", "rsr_x.h5")
  platform_name := some "NOAA-20"
  instrument := .str "viirs"
  unit := "1e-6 m"
  si_scale := RF.of 1e-6
  wavespace := "wavelength"
  description := "d"
  band_names := ["M1"]
  rsr := [("M1", [("det-1", exIntegralDet), ("det-2", exIntegralDet)])]

theorem exIntegralDet_ok : FpDetector exIntegralDet [(0.5, 0), (0.75, 1), (1, 0.5)] where
  wave := rfl
  resp := rfl
  gaps := by norm_num [Gaps]
  size := by intro p hp; simp at hp; rcases hp with rfl | rfl | rfl <;> norm_num
  few := by simp

example : ∃ out v, exIntegralReader.integral "M1" = .ok out ∧ out.keys = ["det-1", "det-2"] ∧
    out.get? "det-2" = some (RF.of v) ∧ |v - 0.3125| ≤ 1e-14 := by
  obtain ⟨out, h1, h2, h3⟩ := C177_integral_accuracy Double.fp exIntegralReader "M1"
    [("det-1", exIntegralDet), ("det-2", exIntegralDet)] rfl (by simp [Dict.WF]) (by
      intro p hp
      simp at hp
      rcases hp with rfl | rfl <;> exact ⟨_, exIntegralDet_ok⟩)
  obtain ⟨v, h4, h5⟩ := h3 "det-2" exIntegralDet _ rfl exIntegralDet_ok
  refine ⟨out, v, h1, h2, h4, ?_⟩
  norm_num [trap] at h5 ⊢
  exact h5.trans (by norm_num)

end Verif.Props
