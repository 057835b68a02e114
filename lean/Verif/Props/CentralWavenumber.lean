import Verif.Props.WaveSpaces
import Verif.Props.ReaderOps
/-
Property C185: central wavelength and central wavenumber.
-/
namespace Verif.Props
open XF Model PyNum Lemmas Spec

/-- half an interval of a trapezoid sum: a position, the weight of the response there, and the ratio of
that weight in wavenumber and in wavelength space -/
structure Atom where
  x : ℝ
  m : ℝ
  ρ : ℝ

noncomputable def atoms : List ℝ → List ℝ → List Atom
  | a :: b :: x, r :: s :: y => ⟨a, (b - a) / 2 * r, 1 / (a * b)⟩ :: ⟨b, (b - a) / 2 * s, 1 / (a * b)⟩ :: atoms (b :: x) (s :: y)
  | _, _ => []

theorem atoms_sum (f : ℝ → ℝ) (x y : List ℝ) :
    trap x (List.zipWith (fun a r => r * f a) x y) = ((atoms x y).map fun p => p.m * f p.x).sum := by
  induction x generalizing y with
  | nil => simp [trap, atoms]
  | cons a x ih =>
    match x, y with
    | [], y => cases y <;> simp [trap, atoms]
    | b :: x, [] => simp [trap, atoms]
    | b :: x, [r] => simp [trap, atoms]
    | b :: x, r :: s :: y =>
      have := ih (s :: y)
      simp only [atoms, List.map_cons, List.sum_cons]
      rw [← this]
      show (b - a) * ((r * f a + s * f b) / 2) + trap (b :: x) (List.zipWith (fun a r => r * f a) (b :: x) (s :: y)) = _
      ring

theorem atoms_sum_wn (K : ℝ) (f : ℝ → ℝ) (x y : List ℝ) (hpos : ∀ v ∈ x, 0 < v) :
    -trap (x.map fun v => K / v) (List.zipWith (fun a r => r * f a) x y) =
      K * ((atoms x y).map fun p => p.m * p.ρ * f p.x).sum := by
  induction x generalizing y with
  | nil => simp [trap, atoms]
  | cons a x ih =>
    match x, y with
    | [], y => cases y <;> simp [trap, atoms]
    | b :: x, [] => simp [trap, atoms]
    | b :: x, [r] => simp [trap, atoms]
    | b :: x, r :: s :: y =>
      have := ih (s :: y) (fun v hv => hpos v (List.mem_cons_of_mem _ hv))
      simp only [atoms, List.map_cons, List.sum_cons]
      rw [mul_add, mul_add, ← this]
      show -((K / b - K / a) * ((r * f a + s * f b) / 2) + trap ((b :: x).map fun v => K / v)
        (List.zipWith (fun a r => r * f a) (b :: x) (s :: y))) = _
      have ha := hpos a (by simp)
      have hb := hpos b (by simp)
      obtain ⟨u, hu⟩ : ∃ u, u = trap ((b :: x).map fun v => K / v) (List.zipWith (fun a r => r * f a) (b :: x) (s :: y)) := ⟨_, rfl⟩
      rw [← hu]
      field_simp
      ring

theorem atoms_lower (x y : List ℝ) (a : ℝ) (h : ∀ v ∈ x, a ≤ v) : ∀ p ∈ atoms x y, a ≤ p.x := by
  induction x generalizing y with
  | nil => simp [atoms]
  | cons b x ih =>
    match x, y with
    | [], y => cases y <;> simp [atoms]
    | c :: x, [] => simp [atoms]
    | c :: x, [r] => simp [atoms]
    | c :: x, r :: s :: y =>
      intro p hp
      simp only [atoms, List.mem_cons] at hp
      rcases hp with rfl | rfl | hp
      · exact h b (by simp)
      · exact h c (by simp)
      · exact ih (s :: y) (fun v hv => h v (List.mem_cons_of_mem _ hv)) p hp

theorem atoms_ratio (x y : List ℝ) (a : ℝ) (ha : 0 < a) (h : ∀ v ∈ x, a ≤ v) (hinc : Increasing x) :
    ∀ p ∈ atoms x y, p.ρ ≤ 1 / (a * a) ∧ 0 < p.ρ := by
  induction x generalizing y with
  | nil => simp [atoms]
  | cons b x ih =>
    match x, y with
    | [], y => cases y <;> simp [atoms]
    | c :: x, [] => simp [atoms]
    | c :: x, [r] => simp [atoms]
    | c :: x, r :: s :: y =>
      intro p hp
      have hb := h b (by simp)
      have hc := h c (by simp)
      have key : 1 / (b * c) ≤ 1 / (a * a) ∧ 0 < 1 / (b * c) := by
        have : 0 < b * c := mul_pos (by linarith) (by linarith)
        exact ⟨one_div_le_one_div_of_le (mul_pos ha ha) (mul_le_mul hb hc ha.le (by linarith)), one_div_pos.2 this⟩
      simp only [atoms, List.mem_cons] at hp
      rcases hp with rfl | rfl | hp
      · exact key
      · exact key
      · exact ih (s :: y) (fun v hv => h v (List.mem_cons_of_mem _ hv)) (List.pairwise_cons.1 hinc).2 p hp

/-- later atoms are further right and count less in wavenumber space -/
def AtomLe (p q : Atom) : Prop := p.x ≤ q.x ∧ q.ρ ≤ p.ρ

theorem atoms_sorted (x y : List ℝ) (hpos : ∀ v ∈ x, 0 < v) (hinc : Increasing x) : (atoms x y).Pairwise AtomLe := by
  induction x generalizing y with
  | nil => simp [atoms]
  | cons a x ih =>
    match x, y with
    | [], y => cases y <;> simp [atoms]
    | b :: x, [] => simp [atoms]
    | b :: x, [r] => simp [atoms]
    | b :: x, r :: s :: y =>
      have ha := hpos a (by simp)
      have hb := hpos b (by simp)
      have hi := List.pairwise_cons.1 hinc
      have hab : a < b := hi.1 b (by simp)
      have hge : ∀ v ∈ b :: x, b ≤ v := by
        intro v hv
        rcases List.mem_cons.1 hv with rfl | hv
        · exact le_rfl
        · exact ((List.pairwise_cons.1 hi.2).1 v hv).le
      have h1 := atoms_lower (b :: x) (s :: y) b hge
      have h2 := atoms_ratio (b :: x) (s :: y) b hb hge hi.2
      have h3 : 1 / (b * b) ≤ 1 / (a * b) := one_div_le_one_div_of_le (mul_pos ha hb) (mul_le_mul_of_nonneg_right hab.le hb.le)
      simp only [atoms, List.pairwise_cons, List.mem_cons]
      refine ⟨?_, ?_, ih (s :: y) (fun v hv => hpos v (List.mem_cons_of_mem _ hv)) hi.2⟩
      · rintro q (rfl | hq)
        · exact ⟨hab.le, le_rfl⟩
        · exact ⟨hab.le.trans (h1 q hq), (h2 q hq).1.trans h3⟩
      · intro q hq
        exact ⟨h1 q hq, (h2 q hq).1.trans h3⟩

theorem atoms_pos (x y : List ℝ) (hpos : ∀ v ∈ x, 0 < v) (hinc : Increasing x) (hy : ∀ v ∈ y, 0 ≤ v) :
    ∀ p ∈ atoms x y, 0 < p.x ∧ 0 ≤ p.m ∧ 0 < p.ρ := by
  induction x generalizing y with
  | nil => simp [atoms]
  | cons a x ih =>
    match x, y with
    | [], y => cases y <;> simp [atoms]
    | b :: x, [] => simp [atoms]
    | b :: x, [r] => simp [atoms]
    | b :: x, r :: s :: y =>
      have ha := hpos a (by simp)
      have hb := hpos b (by simp)
      have hi := List.pairwise_cons.1 hinc
      have hab : a < b := hi.1 b (by simp)
      have hr := hy r (by simp)
      have hs := hy s (by simp)
      have hd : 0 ≤ (b - a) / 2 := by linarith
      intro p hp
      simp only [atoms, List.mem_cons] at hp
      rcases hp with rfl | rfl | hp
      · exact ⟨ha, mul_nonneg hd hr, by positivity⟩
      · exact ⟨hb, mul_nonneg hd hs, by positivity⟩
      · exact ih (s :: y) (fun v hv => hpos v (List.mem_cons_of_mem _ hv)) hi.2
          (fun v hv => hy v (List.mem_cons_of_mem _ hv)) p hp

/-- every sample appears, with a positive weight if its response is positive -/
theorem atoms_mem (x y : List ℝ) (hinc : Increasing x) (h2 : 2 ≤ x.length) (hl : x.length = y.length) :
    ∀ p ∈ x.zip y, 0 < p.2 → ∃ q ∈ atoms x y, q.x = p.1 ∧ 0 < q.m := by
  induction x generalizing y with
  | nil => simp at h2
  | cons a x ih =>
    match x, y, h2, hl with
    | b :: x, r :: s :: y, _, hl =>
      have hi := List.pairwise_cons.1 hinc
      have hab : a < b := hi.1 b (by simp)
      have hd : 0 < (b - a) / 2 := by linarith
      intro p hp hpr
      simp only [List.zip_cons_cons, List.mem_cons] at hp
      rcases hp with rfl | rfl | hp
      · exact ⟨⟨a, (b - a) / 2 * r, 1 / (a * b)⟩, by simp [atoms], rfl, mul_pos hd hpr⟩
      · exact ⟨⟨b, (b - a) / 2 * s, 1 / (a * b)⟩, by simp [atoms], rfl, mul_pos hd hpr⟩
      · match x, y, hl, hp with
        | c :: x, t :: y, hl, hp =>
          obtain ⟨q, hq, h⟩ := ih (s :: t :: y) hi.2 (by simp) (by simpa using hl) p
            (by simp only [List.zip_cons_cons, List.mem_cons] at hp ⊢; exact .inr hp) hpr
          exact ⟨q, by simp only [atoms, List.mem_cons] at hq ⊢; exact .inr (.inr hq), h⟩

/-- the comparison of one atom with the others -/
theorem atom_bracket (p : Atom) (l : List Atom) (hp : 0 < p.x ∧ 0 ≤ p.m ∧ 0 < p.ρ)
    (hl : ∀ q ∈ l, AtomLe p q ∧ 0 < q.x ∧ 0 ≤ q.m ∧ 0 < q.ρ) :
    0 ≤ p.m * p.ρ / p.x * (l.map fun q => q.m * q.x).sum + p.m * p.x * (l.map fun q => q.m * q.ρ / q.x).sum -
      p.m * p.ρ * (l.map fun q => q.m).sum - p.m * (l.map fun q => q.m * q.ρ).sum ∧
    ((∃ q ∈ l, p.x < q.x ∧ 0 < p.m ∧ 0 < q.m) →
      0 < p.m * p.ρ / p.x * (l.map fun q => q.m * q.x).sum + p.m * p.x * (l.map fun q => q.m * q.ρ / q.x).sum -
      p.m * p.ρ * (l.map fun q => q.m).sum - p.m * (l.map fun q => q.m * q.ρ).sum) := by
  induction l with
  | nil => simp
  | cons q l ih =>
    obtain ⟨i1, i2⟩ := ih fun q' hq' => hl q' (List.mem_cons_of_mem _ hq')
    obtain ⟨⟨h1, h2⟩, h3, h4, h5⟩ := hl q (by simp)
    obtain ⟨p1, p2, p3⟩ := hp
    have e : p.m * p.ρ / p.x * (q.m * q.x) + p.m * p.x * (q.m * q.ρ / q.x) - p.m * p.ρ * q.m - p.m * (q.m * q.ρ) =
        p.m * q.m * ((q.x - p.x) * (p.ρ / p.x - q.ρ / q.x)) := by
      field_simp
      ring
    have hd : q.ρ / q.x ≤ p.ρ / p.x := div_le_div₀ p3.le h2 p1 h1
    have t : 0 ≤ p.m * q.m * ((q.x - p.x) * (p.ρ / p.x - q.ρ / q.x)) :=
      mul_nonneg (mul_nonneg p2 h4) (mul_nonneg (by linarith) (by linarith))
    simp only [List.map_cons, List.sum_cons]
    constructor
    · nlinarith
    · rintro ⟨q', hq', g⟩
      rcases List.mem_cons.1 hq' with rfl | hq'
      · have hd' : q'.ρ / q'.x < p.ρ / p.x :=
          (div_lt_div_of_pos_left h5 p1 g.1).trans_le (div_le_div_of_nonneg_right h2 p1.le)
        have : 0 < p.m * q'.m * ((q'.x - p.x) * (p.ρ / p.x - q'.ρ / q'.x)) :=
          mul_pos (mul_pos g.2.1 g.2.2) (mul_pos (by linarith [g.1]) (by linarith))
        nlinarith
      · have := i2 ⟨q', hq', g⟩
        nlinarith

theorem atoms_compare (l : List Atom) (hs : l.Pairwise AtomLe) (hp : ∀ p ∈ l, 0 < p.x ∧ 0 ≤ p.m ∧ 0 < p.ρ) :
    (l.map fun p => p.m * p.ρ).sum * (l.map fun p => p.m).sum ≤
      (l.map fun p => p.m * p.ρ / p.x).sum * (l.map fun p => p.m * p.x).sum ∧
    ((∃ p ∈ l, ∃ q ∈ l, p.x < q.x ∧ 0 < p.m ∧ 0 < q.m) →
      (l.map fun p => p.m * p.ρ).sum * (l.map fun p => p.m).sum <
        (l.map fun p => p.m * p.ρ / p.x).sum * (l.map fun p => p.m * p.x).sum) := by
  induction l with
  | nil => simp
  | cons a l ih =>
    obtain ⟨s1, s2⟩ := List.pairwise_cons.1 hs
    obtain ⟨i1, i2⟩ := ih s2 fun q hq => hp q (List.mem_cons_of_mem _ hq)
    obtain ⟨b1, b2⟩ := atom_bracket a l (hp a (by simp)) fun q hq => ⟨s1 q hq, hp q (List.mem_cons_of_mem _ hq)⟩
    have hx := (hp a (by simp)).1
    have e : a.m * a.ρ / a.x * (a.m * a.x) = a.m * a.ρ * a.m := by field_simp
    simp only [List.map_cons, List.sum_cons]
    constructor
    · nlinarith
    · rintro ⟨p, hpm, q, hqm, h⟩
      rcases List.mem_cons.1 hqm with hq | hq
      · exfalso
        rcases List.mem_cons.1 hpm with hp' | hp'
        · rw [hp', hq] at h; exact lt_irrefl _ h.1
        · have := (s1 p hp').1
          rw [hq] at h
          linarith [h.1]
      · rcases List.mem_cons.1 hpm with hp' | hp'
        · have := b2 ⟨q, hq, by rw [← hp']; exact h⟩
          nlinarith
        · have := i2 ⟨p, hp', q, hq, h⟩
          nlinarith

theorem zipWith_second {x y : List ℝ} (h : x.length = y.length) : List.zipWith (fun _ r => r) x y = y := by
  induction x generalizing y with
  | nil => cases y with
    | nil => rfl
    | cons => simp at h
  | cons a x ih => cases y with
    | nil => simp at h
    | cons b y => simp [ih (y := y) (by simpa using h)]

/-- a response curve in micron: at least two increasing positive wavelengths, responses not negative and
not all zero -/
def MicronCurve (c : Curve) : Prop := RealCurve (c.map Prod.fst) (c.map Prod.snd)

/-- C185: the central wavenumber of a response curve is never below 10000 over its central wavelength,
and above it when two responses are positive. -/
theorem C185_central_waves (c : Curve) (hc : MicronCurve c) :
    ∃ lc nc, getCentralWave (finL (c.map Prod.fst)) (finL (c.map Prod.snd)) = .ok (fin lc) ∧
      getCentralWave (finL ((c.map fun p => (1e4 / p.1, p.2)).reverse.map Prod.fst))
        (finL ((c.map fun p => (1e4 / p.1, p.2)).reverse.map Prod.snd)) = .ok (fin nc) ∧
      0 < lc ∧ 1e4 / lc ≤ nc ∧
      ((∃ p ∈ c, ∃ p' ∈ c, p.1 < p'.1 ∧ 0 < p.2 ∧ 0 < p'.2) → 1e4 / lc < nc) := by
  obtain ⟨hlen, h2, hinc, hpos, hnn, hsome⟩ := hc
  have hposc : ∀ p ∈ c, 0 < p.1 := fun p hp => hpos _ (List.mem_map_of_mem hp)
  have hne : c ≠ [] := by rintro rfl; simp at h2
  have hD := trap_pos_of_mem _ _ hlen h2 hinc hnn hsome
  have hinc' := C20_wavenumbers_increase c hposc hinc
  have hD' : 0 < trap ((c.map fun p => (1e4 / p.1, p.2)).reverse.map Prod.fst) ((c.map fun p => (1e4 / p.1, p.2)).reverse.map Prod.snd) := by
    refine trap_pos_of_mem _ _ (by simp) (by simpa using h2) hinc' ?_ ?_
    · intro v hv
      rw [List.map_reverse, List.mem_reverse, List.map_map] at hv
      exact hnn v hv
    · obtain ⟨v, hv, h⟩ := hsome
      exact ⟨v, by rw [List.map_reverse, List.mem_reverse, List.map_map]; exact hv, h⟩
  obtain ⟨a, ha⟩ : ∃ a, (c.map Prod.fst).head? = some a := by
    cases c with
    | nil => exact absurd rfl hne
    | cons p c => exact ⟨_, rfl⟩
  obtain ⟨b, hb⟩ : ∃ b, (c.map Prod.fst).getLast? = some b :=
    Option.isSome_iff_exists.1 (by simpa [List.getLast?_isSome] using hne)
  obtain ⟨lc, l1, l2, l3, l4⟩ := C22_central_wave_inside_unweighted _ _ hlen hinc hnn hD.ne' a b ha hb
  obtain ⟨a', ha'⟩ : ∃ a, ((c.map fun p => ((1e4 : ℝ) / p.1, p.2)).reverse.map Prod.fst).head? = some a := by
    exact Option.isSome_iff_exists.1 (by simpa [List.isSome_head?] using hne)
  obtain ⟨b', hb'⟩ : ∃ b, ((c.map fun p => ((1e4 : ℝ) / p.1, p.2)).reverse.map Prod.fst).getLast? = some b :=
    Option.isSome_iff_exists.1 (by simpa [List.getLast?_isSome] using hne)
  obtain ⟨nc, n1, _, _, n4⟩ := C22_central_wave_inside_unweighted _ _ (by simp) hinc' (by
    intro v hv
    rw [List.map_reverse, List.mem_reverse, List.map_map] at hv
    exact hnn v hv) hD'.ne' a' b' ha' hb'
  have hlc : 0 < lc := (hpos a (List.mem_of_mem_head? ha)).trans_le l2
  refine ⟨lc, nc, l1, n1, hlc, ?_⟩
  obtain ⟨x, hx⟩ : ∃ x, x = c.map Prod.fst := ⟨_, rfl⟩
  obtain ⟨y, hy⟩ : ∃ y, y = c.map Prod.snd := ⟨_, rfl⟩
  have w1 : (c.map fun p => ((1e4 : ℝ) / p.1, p.2)).reverse.map Prod.fst = (x.map fun v => 1e4 / v).reverse := by
    rw [List.map_reverse, List.map_map, hx, List.map_map]; rfl
  have w2 : (c.map fun p => ((1e4 : ℝ) / p.1, p.2)).reverse.map Prod.snd = y.reverse := by
    rw [List.map_reverse, List.map_map, hy]; rfl
  rw [w1, w2] at n4 hD'
  rw [← hx] at hpos hinc h2
  rw [← hy] at hnn
  rw [← hx, ← hy] at l4 hD hlen
  have f1 : trap x y = ((atoms x y).map fun p => p.m).sum := by
    have := atoms_sum (fun _ => 1) x y
    simp only [mul_one] at this
    rw [← this]
    congr 1
    exact (zipWith_second hlen).symm
  have f2 : trap x (List.zipWith (· * ·) x y) = ((atoms x y).map fun p => p.m * p.x).sum := by
    rw [← atoms_sum (fun v => v) x y]
    congr 2
    funext a b
    ring
  have f3 : trap (x.map fun v => 1e4 / v).reverse y.reverse = 1e4 * ((atoms x y).map fun p => p.m * p.ρ).sum := by
    rw [trap_reverse _ _ (by simpa using hlen)]
    have := atoms_sum_wn 1e4 (fun _ => 1) x y hpos
    simp only [mul_one] at this
    rw [← this]
    congr 2
    exact (zipWith_second hlen).symm
  have f4 : trap (x.map fun v => 1e4 / v).reverse (List.zipWith (· * ·) (x.map fun v => 1e4 / v).reverse y.reverse) =
      1e4 * (1e4 * ((atoms x y).map fun p => p.m * p.ρ / p.x).sum) := by
    rw [← List.reverse_zipWith (by simpa using hlen), trap_reverse _ _ (by simp [hlen])]
    have := atoms_sum_wn 1e4 (fun v => 1e4 / v) x y hpos
    rw [List.zipWith_map_left]
    have e : (fun a b : ℝ => 1e4 / a * b) = fun a r => r * (1e4 / a) := by funext a b; ring
    rw [e, this, ← List.sum_map_mul_left (f := fun p : Atom => p.m * p.ρ / p.x)]
    congr 3
    funext p
    ring
  obtain ⟨g1, g2⟩ := atoms_compare _ (atoms_sorted x y hpos hinc) (atoms_pos x y hpos hinc hnn)
  rw [f3] at hD'
  rw [f1] at hD l4
  rw [f2] at l4
  rw [f3, f4] at n4
  obtain ⟨D, hDe⟩ : ∃ D, D = ((atoms x y).map fun p => p.m).sum := ⟨_, rfl⟩
  obtain ⟨D', hDe'⟩ : ∃ D, D = ((atoms x y).map fun p => p.m * p.ρ).sum := ⟨_, rfl⟩
  rw [← hDe] at hD l4 g1 g2
  rw [← hDe'] at hD' n4 g1 g2
  have hD'' : 0 < D' := by linarith
  have n5 : nc * D' = 1e4 * ((atoms x y).map fun p => p.m * p.ρ / p.x).sum := by linarith
  rw [← l4] at g1 g2
  have key : ((atoms x y).map fun p => p.m * p.ρ / p.x).sum * (lc * D) = nc * lc / 1e4 * (D' * D) := by
    have : ((atoms x y).map fun p => p.m * p.ρ / p.x).sum = nc * D' / 1e4 := by rw [n5]; ring
    rw [this]; ring
  rw [key] at g1 g2
  have hDD : 0 < D' * D := mul_pos hD'' hD
  constructor
  · rw [div_le_iff₀ hlc]
    have : 1 * (D' * D) ≤ nc * lc / 1e4 * (D' * D) := by linarith
    have := le_of_mul_le_mul_right this hDD
    rw [le_div_iff₀ (by norm_num)] at this
    linarith
  · rintro ⟨p, hp, p', hp', h1, h2', h3⟩
    have mem : ∀ p ∈ c, p ∈ x.zip y := by
      intro p hp
      rw [hx, hy, List.zip_map']
      exact List.mem_map.2 ⟨p, hp, rfl⟩
    obtain ⟨q, hq, e1, e2⟩ := atoms_mem x y hinc h2 hlen p (mem p hp) h2'
    obtain ⟨q', hq', e1', e2'⟩ := atoms_mem x y hinc h2 hlen p' (mem p' hp') h3
    have := g2 ⟨q, hq, q', hq', by rw [e1, e1']; exact h1, e2, e2'⟩
    rw [div_lt_iff₀ hlc]
    have : 1 * (D' * D) < nc * lc / 1e4 * (D' * D) := by linarith
    have := lt_of_mul_lt_mul_right this hDD.le
    rw [lt_div_iff₀ (by norm_num)] at this
    linarith

/-- a curve of three samples -/
example : ∃ lc nc, getCentralWave (finL [10, 11, 12]) (finL [0.1, 1, 0.2]) = .ok (fin lc) ∧
    getCentralWave (finL [1e4 / 12, 1e4 / 11, 1e4 / 10]) (finL [0.2, 1, 0.1]) = .ok (fin nc) ∧ 1e4 / lc < nc := by
  obtain ⟨lc, nc, h1, h2, _, _, h3⟩ := C185_central_waves [(10, 0.1), (11, 1), (12, 0.2)]
    ⟨rfl, by simp, by simp [Increasing]; norm_num, by intro x hx; simp at hx; rcases hx with rfl | rfl | rfl <;> norm_num,
      by intro x hx; simp at hx; rcases hx with rfl | rfl | rfl <;> norm_num, ⟨1, by simp, by norm_num⟩⟩
  exact ⟨lc, nc, h1, h2, h3 ⟨(10, 0.1), by simp, (11, 1), by simp, by norm_num⟩⟩

/-- C185: after `convert()` the central wavenumber of every detector is at least 10000 over the central
wavelength of its curve, and above it if two responses are positive. -/
theorem C185_convert (r : Reader XF) (hws : r.wavespace = "wavelength") (hd : WavelengthData r.rsr)
    (hwf : ∀ p ∈ r.rsr, ∀ q ∈ p.2, q.2.WF) (hne : ∃ p ∈ r.rsr, p.2 ≠ []) (b : String) (B : BandRsr XF)
    (hB : r.rsr.get? b = some B) (d : String) (det : DetRsr XF) (hdet : B.get? d = some det) (c : Curve)
    (hcur : HasCurve det "wavelength" c) (hc : MicronCurve c) :
    ∃ r' B' det' lc nc, Reader.convert r = (.ok (), r') ∧ r'.rsr.get? b = some B' ∧ B'.get? d = some det' ∧
      det'.get? "central_wavenumber" = some (.num (fin nc)) ∧
      getCentralWave (finL (c.map Prod.fst)) (finL (c.map Prod.snd)) = .ok (fin lc) ∧ 0 < lc ∧ 1e4 / lc ≤ nc ∧
      ((∃ p ∈ c, ∃ p' ∈ c, p.1 < p'.1 ∧ 0 < p.2 ∧ 0 < p'.2) → 1e4 / lc < nc) := by
  obtain ⟨r', h1, _, _, _, _, _, _, _, _, _, h2⟩ := C43_convert r hws hd hwf hne
  obtain ⟨B', k1, _, k2⟩ := h2 b B hB
  obtain ⟨det', m1, m2, _⟩ := k2 d det hdet
  obtain ⟨_, v, v1, v2⟩ := m2 c hcur
  obtain ⟨lc, nc, g1, g2, g3⟩ := C185_central_waves c hc
  rw [g2] at v2
  cases v2
  exact ⟨r', B', det', lc, nc, h1, k1, m1, v1, g1, g3⟩

/-- C185: the documented formula.  The central wavenumber is the integral of response over wavelength
cubed divided by that of response over wavelength squared, up to the square of the largest ratio of
neighbouring wavelengths. -/
theorem C185_documented_formula (c : Curve) (hc : MicronCurve c) (q : ℝ) (hq : StepsWithin q (c.map Prod.fst)) :
    ∃ nc, getCentralWave (finL ((c.map fun p => (1e4 / p.1, p.2)).reverse.map Prod.fst))
        (finL ((c.map fun p => (1e4 / p.1, p.2)).reverse.map Prod.snd)) = .ok (fin nc) ∧
      0 < Spec.integral c (fun p => p.2 / p.1 ^ 2) ∧
      WithinFactor (q ^ 2) nc (1e4 * (Spec.integral c (fun p => p.2 / p.1 ^ 3) / Spec.integral c (fun p => p.2 / p.1 ^ 2))) := by
  obtain ⟨hlen, h2, hinc, hpos, hnn, hsome⟩ := hc
  have hposc : ∀ p ∈ c, 0 < p.1 := fun p hp => hpos _ (List.mem_map_of_mem hp)
  have hnnc : ∀ p ∈ c, 0 ≤ p.2 := fun p hp => hnn _ (List.mem_map_of_mem hp)
  have hne : c ≠ [] := by rintro rfl; simp at h2
  have hq0 : 0 < q := by
    match c, h2 with
    | a :: b :: c, _ =>
      have h1 := (List.isChain_cons_cons.1 hq).1
      have ha := hposc a (by simp)
      have hb := hposc b (by simp)
      by_contra hcon
      have : q * a.1 ≤ 0 := mul_nonpos_of_nonpos_of_nonneg (not_lt.1 hcon) ha.le
      linarith
  have hinc' := C20_wavenumbers_increase c hposc hinc
  have hnn' : ∀ v ∈ (c.map fun p => ((1e4 : ℝ) / p.1, p.2)).reverse.map Prod.snd, 0 ≤ v := by
    intro v hv
    rw [List.map_reverse, List.mem_reverse, List.map_map] at hv
    exact hnn v hv
  have hD' : 0 < trap ((c.map fun p => ((1e4 : ℝ) / p.1, p.2)).reverse.map Prod.fst)
      ((c.map fun p => ((1e4 : ℝ) / p.1, p.2)).reverse.map Prod.snd) := by
    refine trap_pos_of_mem _ _ (by simp) (by simpa using h2) hinc' hnn' ?_
    obtain ⟨v, hv, h⟩ := hsome
    exact ⟨v, by rw [List.map_reverse, List.mem_reverse, List.map_map]; exact hv, h⟩
  obtain ⟨a', ha'⟩ : ∃ a, ((c.map fun p => ((1e4 : ℝ) / p.1, p.2)).reverse.map Prod.fst).head? = some a := by
    exact Option.isSome_iff_exists.1 (by simpa [List.isSome_head?] using hne)
  obtain ⟨b', hb'⟩ : ∃ b, ((c.map fun p => ((1e4 : ℝ) / p.1, p.2)).reverse.map Prod.fst).getLast? = some b :=
    Option.isSome_iff_exists.1 (by simpa [List.getLast?_isSome] using hne)
  obtain ⟨nc, n1, _, _, n4⟩ := C22_central_wave_inside_unweighted _ _ (by simp) hinc' hnn' hD'.ne' a' b' ha' hb'
  have sum : ∀ f : ℝ × ℝ → ℝ, (∀ p ∈ c, 0 ≤ f p) →
      Spec.integral c f / q ≤ trap (c.map fun p => (1e4 : ℝ) / p.1).reverse (c.map fun p => f p * p.1 ^ 2 / 1e4).reverse ∧
      trap (c.map fun p => (1e4 : ℝ) / p.1).reverse (c.map fun p => f p * p.1 ^ 2 / 1e4).reverse ≤ q * Spec.integral c f := by
    intro f hf
    have := space_sum (q := q) (K := 1e4) (by norm_num) (c.map Prod.fst) (c.map f) (by simp) hpos hinc hq
      (by intro v hv; obtain ⟨p, hp, rfl⟩ := List.mem_map.1 hv; exact hf p hp)
    rw [zipWith_map_map, List.map_map] at this
    rw [trap_reverse _ _ (by simp)]
    exact this
  obtain ⟨s1, s2⟩ := sum (fun p => 1e4 * (p.2 / p.1 ^ 2)) (fun p hp => by have := hposc p hp; have := hnnc p hp; positivity)
  obtain ⟨t1, t2⟩ := sum (fun p => 1e4 * (1e4 * (p.2 / p.1 ^ 3))) (fun p hp => by have := hposc p hp; have := hnnc p hp; positivity)
  have e1 : (c.map fun p => 1e4 * (p.2 / p.1 ^ 2) * p.1 ^ 2 / 1e4) = c.map Prod.snd := by
    apply List.map_congr_left
    intro p hp
    have := hposc p hp
    field_simp
  have e2 : (c.map fun p => 1e4 * (1e4 * (p.2 / p.1 ^ 3)) * p.1 ^ 2 / 1e4) = c.map fun p => 1e4 / p.1 * p.2 := by
    apply List.map_congr_left
    intro p hp
    have := hposc p hp
    field_simp
  rw [e1] at s1 s2
  rw [e2] at t1 t2
  have i1 : Spec.integral c (fun p => 1e4 * (p.2 / p.1 ^ 2)) = 1e4 * Spec.integral c (fun p => p.2 / p.1 ^ 2) := by
    unfold Spec.integral; exact trap_smul _ _ _ _
  have i2 : Spec.integral c (fun p => 1e4 * (1e4 * (p.2 / p.1 ^ 3))) = 1e4 * (1e4 * Spec.integral c (fun p => p.2 / p.1 ^ 3)) := by
    unfold Spec.integral; rw [trap_smul, trap_smul]
  rw [i1] at s1 s2
  rw [i2] at t1 t2
  have w1 : (c.map fun p => ((1e4 : ℝ) / p.1, p.2)).reverse.map Prod.fst = (c.map fun p => 1e4 / p.1).reverse := by
    rw [List.map_reverse, List.map_map]; rfl
  have w2 : (c.map fun p => ((1e4 : ℝ) / p.1, p.2)).reverse.map Prod.snd = (c.map Prod.snd).reverse := by
    rw [List.map_reverse, List.map_map]; rfl
  rw [w1, w2] at n4 hD'
  rw [← List.reverse_zipWith (by simp), zipWith_map_map] at n4
  obtain ⟨D, hDe⟩ : ∃ D, D = trap (c.map fun p => (1e4 : ℝ) / p.1).reverse (c.map Prod.snd).reverse := ⟨_, rfl⟩
  obtain ⟨N, hNe⟩ : ∃ N, N = trap (c.map fun p => (1e4 : ℝ) / p.1).reverse (c.map fun p => 1e4 / p.1 * p.2).reverse := ⟨_, rfl⟩
  obtain ⟨R, hR⟩ : ∃ R, R = Spec.integral c (fun p => p.2 / p.1 ^ 2) := ⟨_, rfl⟩
  obtain ⟨P, hP⟩ : ∃ P, P = Spec.integral c (fun p => p.2 / p.1 ^ 3) := ⟨_, rfl⟩
  rw [← hDe] at s1 s2 n4 hD'
  rw [← hNe] at t1 t2 n4
  rw [← hR] at s1 s2 ⊢
  rw [← hP] at t1 t2 ⊢
  have hR0 : 0 < R := by
    by_contra hcon
    have : q * (1e4 * R) ≤ 0 := mul_nonpos_of_nonneg_of_nonpos hq0.le (by linarith)
    linarith
  have hP0 : 0 ≤ P := by
    rw [hP]
    exact trap_nonneg _ _ c (Increasing.nonDec hinc) (fun p hp => by have := hposc p hp; have := hnnc p hp; positivity)
  have hnc : nc = N / D := by rw [eq_div_iff hD'.ne']; exact n4
  refine ⟨nc, n1, hR0, ?_, ?_⟩
  · rw [hnc, div_le_div_iff₀ (by positivity) hD']
    rw [div_le_iff₀ hq0] at t1
    calc 1e4 * (P / R) * D ≤ 1e4 * (P / R) * (q * (1e4 * R)) := mul_le_mul_of_nonneg_left s2 (by positivity)
      _ = q * (1e4 * (1e4 * P)) := by field_simp
      _ ≤ q * (N * q) := mul_le_mul_of_nonneg_left t1 hq0.le
      _ = N * q ^ 2 := by ring
  · rw [hnc, div_le_iff₀ hD']
    rw [div_le_iff₀ hq0] at s1
    calc N ≤ q * (1e4 * (1e4 * P)) := t2
      _ = q * (1e4 * (P / R)) * (1e4 * R) := by field_simp
      _ ≤ q * (1e4 * (P / R)) * (D * q) := mul_le_mul_of_nonneg_left s1 (by positivity)
      _ = q ^ 2 * (1e4 * (P / R)) * D := by ring

example : ∃ nc, getCentralWave (finL [1e4 / 12, 1e4 / 11, 1e4 / 10]) (finL [0.2, 1, 0.1]) = .ok (fin nc) ∧
    WithinFactor (1.1 ^ 2) nc (1e4 * (Spec.integral [(10, 0.1), (11, 1), (12, 0.2)] (fun p => p.2 / p.1 ^ 3) /
      Spec.integral [(10, 0.1), (11, 1), (12, 0.2)] (fun p => p.2 / p.1 ^ 2))) := by
  obtain ⟨nc, h1, _, h2⟩ := C185_documented_formula [(10, 0.1), (11, 1), (12, 0.2)]
    ⟨rfl, by simp, by simp [Increasing]; norm_num, by intro x hx; simp at hx; rcases hx with rfl | rfl | rfl <;> norm_num,
      by intro x hx; simp at hx; rcases hx with rfl | rfl | rfl <;> norm_num, ⟨1, by simp, by norm_num⟩⟩ 1.1
    (by simp [StepsWithin]; norm_num)
  exact ⟨nc, h1, h2⟩

end Verif.Props
