import Verif.Props.NirRetrieval
/-
C97 without a table, for arrays of any number of axes: what shape comes out, and exactly when it is
the shape of the temperatures.
-/
namespace Verif.Props
open Model Spec Lemmas PyNum XF

theorem bshape_self : ∀ s : List Nat, Arr.bshape s s = some s
  | [] => rfl
  | m :: s => by simp [Arr.bshape, bshape_self s]

theorem bshape_nil_right : ∀ s : List Nat, Arr.bshape s [] = some s
  | [] => rfl
  | _ :: _ => rfl

/-- the shape of the result of a broadcast, for any data -/
theorem bcast_of_bshape {A B C : Type} (f : A → B → C) (a : Arr A) (b : Arr B) (r : List Nat)
    (h : Arr.bshape a.shape.reverse b.shape.reverse = some r) : ∃ d, Arr.bcast f a b = .ok ⟨r.reverse, d⟩ := by
  unfold Arr.bcast
  split
  · rename_i he
    rw [he, bshape_self] at h
    have : r = b.shape.reverse := (Option.some.inj h).symm
    subst this
    exact ⟨_, by rw [he, List.reverse_reverse]⟩
  · split
    · simp only [List.reverse_nil, Arr.bshape, Option.some.injEq] at h
      subst h
      exact ⟨_, by simp [Arr.map]; rfl⟩
    · simp only [List.reverse_nil, bshape_nil_right, Option.some.injEq] at h
      subst h
      exact ⟨_, by simp [Arr.map]; rfl⟩
    · rw [h]
      exact ⟨_, rfl⟩

/-- incompatible shapes -/
theorem bcast_of_none {A B C : Type} (f : A → B → C) (a : Arr A) (b : Arr B)
    (h : Arr.bshape a.shape.reverse b.shape.reverse = none) : Arr.bcast f a b = .error .valueError := by
  unfold Arr.bcast
  split
  · rename_i he
    rw [he, bshape_self] at h
    simp at h
  · split
    · simp [Arr.bshape] at h
    · simp [bshape_nil_right] at h
    · rw [h]

/-- a flat array of `n` and an array whose last axis has length `c` -/
theorem bshape_flat (n c : Nat) (rest : List Nat) :
    Arr.bshape (c :: rest) [n] = Arr.bshape [n] (c :: rest) ∧
    (Arr.bshape [n] (c :: rest) = if n = c then some (c :: rest) else if n = 1 then some (c :: rest)
      else if c = 1 then some (n :: rest) else none) := by
  constructor
  · simp only [Arr.bshape, bshape_nil_right]
    by_cases h : c = n
    · simp [h]
    · by_cases h1 : c = 1
      · by_cases h2 : n = 1
        · omega
        · simp [h1, h2]
      · simp [h, h1, Ne.symm h]
  · simp only [Arr.bshape]
    by_cases h : n = c
    · simp [h]
    · by_cases h2 : n = 1
      · simp [h2]
      · simp [h, h2]

/-- what `r3xOf` gives for shapes that all broadcast to `q` -/
theorem r3xOf_shape (integral : XF) (lim : Option XF) (t11 r corr solar z n : Arr XF) (cs : List Nat) (q : List Nat)
    (h1 : Arr.bshape t11.shape.reverse corr.shape.reverse = some cs)
    (h2 : ∃ ns, Arr.bshape r.shape.reverse cs = some ns ∧ Arr.bshape ns q = some q)
    (h3 : Arr.bshape solar.shape.reverse cs = some q)
    (h4 : Arr.bshape z.shape.reverse q = some q) (h5 : Arr.bshape n.shape.reverse q = some q) :
    ∃ d, r3xOf integral lim t11 r corr solar z n = .ok ⟨q.reverse, d⟩ := by
  obtain ⟨ns, h2, h2'⟩ := h2
  unfold r3xOf
  obtain ⟨d1, e1⟩ := bcast_of_bshape (· * ·) (t11.map (· * integral)) corr cs h1
  simp only [e1, bind, Except.bind]
  obtain ⟨d2, e2⟩ := bcast_of_bshape (· - ·) (r.map (· * integral)) ⟨cs.reverse, d1⟩ ns
    (by simpa [Arr.map] using h2)
  simp only [e2]
  obtain ⟨d3, e3⟩ := bcast_of_bshape (· - ·) solar ⟨cs.reverse, d1⟩ q (by simpa using h3)
  simp only [e3]
  obtain ⟨d4, e4⟩ := bcast_of_bshape (· / ·) (⟨ns.reverse, d2⟩ : Arr XF) ⟨q.reverse, d3⟩ q (by simpa using h2')
  simp only [e4]
  have hz : ∀ d : List Bool, ∃ d', zenithMask lim z ⟨q.reverse, d⟩ = .ok ⟨q.reverse, d'⟩ := by
    intro d
    cases lim with
    | none => exact ⟨d, rfl⟩
    | some l =>
      obtain ⟨d', e⟩ := bcast_of_bshape (· || ·) (z.map fun x => lt x 0.0 || gt x l) ⟨q.reverse, d⟩ q
        (by simpa [Arr.map] using h4)
      refine ⟨d', ?_⟩
      simp only [zenithMask, Arr.bcastOut, e, bind, Except.bind, if_true]
      rfl
  obtain ⟨d5, e5⟩ := hz (d3.map (lt · NIR_EPSILON))
  simp only [Arr.map] at e5 ⊢
  simp only [e5]
  obtain ⟨d6, e6⟩ := bcast_of_bshape (fun (a : Bool) m => m || a) (n.map isNaN) ⟨q.reverse, d5⟩ q
    (by simpa [Arr.map] using h5)
  simp only [Arr.map] at e6
  simp only [Arr.bcastOut, e6, bind, Except.bind, if_true, pure, Except.pure]
  obtain ⟨d7, e7⟩ := bcast_of_bshape (fun (m : Bool) (v : XF) => if m then nan else v) (⟨q.reverse, d6⟩ : Arr Bool)
    ⟨q.reverse, d4⟩ q (by simpa using bshape_self q)
  exact ⟨d7, e7⟩

/-- the reflectance of a call on a scene without table, from the pixel arrays -/
theorem reflectance_result (nc : Int) (s : Nir XF) (hrsr : s.conv.rsr ≠ []) (sc : Scene XF) :
    (∀ e, retrieved s nc (sc.lut.getD s.lut) ⟨sc.shape, sc.pixels.map Pixel.zenith⟩ ⟨sc.shape, sc.pixels.map Pixel.nir⟩
        ⟨sc.shape, sc.pixels.map Pixel.therm⟩ (if sc.useCo2 then some ⟨sc.shape, sc.pixels.map Pixel.co2⟩ else none) =
          .error e → (reflectance nc sc s).1 = .error e) ∧
    (∀ a, retrieved s nc (sc.lut.getD s.lut) ⟨sc.shape, sc.pixels.map Pixel.zenith⟩ ⟨sc.shape, sc.pixels.map Pixel.nir⟩
        ⟨sc.shape, sc.pixels.map Pixel.therm⟩ (if sc.useCo2 then some ⟨sc.shape, sc.pixels.map Pixel.co2⟩ else none) =
          .ok a → ∃ out, (reflectance nc sc s).1 = .ok out ∧ out.values = a) := by
  have hr : s.conv.rsr.isEmpty = false := by
    cases hh : s.conv.rsr <;> simp_all
  have h2 : (Option.map NirIn.asArray (if sc.useCo2 = true then
      some (NirIn.array sc.kc ⟨sc.shape, sc.pixels.map Pixel.co2⟩) else none)) =
      (if sc.useCo2 = true then some ⟨sc.shape, sc.pixels.map Pixel.co2⟩ else none) := by
    cases sc.useCo2 <;> rfl
  have h3 := (retrieve_run s nc (sc.lut.getD s.lut) ⟨sc.shape, sc.pixels.map Pixel.zenith⟩ ⟨sc.shape, sc.pixels.map Pixel.nir⟩
    ⟨sc.shape, sc.pixels.map Pixel.therm⟩ (if sc.useCo2 then some ⟨sc.shape, sc.pixels.map Pixel.co2⟩ else none)).1
  rcases e : Nir.retrieve nc (sc.lut.getD s.lut) ⟨sc.shape, sc.pixels.map Pixel.zenith⟩ ⟨sc.shape, sc.pixels.map Pixel.nir⟩
    ⟨sc.shape, sc.pixels.map Pixel.therm⟩ (if sc.useCo2 then some ⟨sc.shape, sc.pixels.map Pixel.co2⟩ else none) s with ⟨r, u⟩
  rw [e] at h3
  simp only at h3
  subst h3
  unfold reflectance Nir.reflectanceFromTbs
  rw [st_bind_ok (st_get s)]
  simp only [hr, Bool.false_eq_true, if_false, NirIn.asArray, ne_eq, not_true_eq_false]
  rw [h2]
  constructor
  · intro er he
    rw [he] at e
    show ((Nir.retrieve nc _ _ _ _ _ >>= _) s).1 = _
    rw [st_bind_error e]
  · intro a ha
    rw [ha] at e
    rw [st_bind_ok (by exact e)]
    exact ⟨_, rfl, rfl⟩

/-- C97 without a table, for arrays with any number of axes whose last one has length `c`: if all pixels lie along the
last axis the reflectances have the shape of the temperatures; if the last axis has length 1 (and there is more than
one pixel) it comes out as long as there are pixels; in all other cases ValueError is raised. -/
theorem C97_without_table (nc : Int) (s : Nir XF) (R : XF → XF) (hrsr : s.conv.rsr ≠ []) (sc : Scene XF)
    (hlut : sc.lut.getD s.lut = none) (hR : Converts s.conv nc none R) (lead : List Nat) (c : Nat)
    (hsh : sc.shape = lead ++ [c]) (hpx : sc.pixels ≠ []) :
    (c = sc.pixels.length → ∃ out, (reflectance nc sc s).1 = .ok out ∧ out.values.shape = lead ++ [c]) ∧
    (c = 1 → sc.pixels.length ≠ 1 →
      ∃ out, (reflectance nc sc s).1 = .ok out ∧ out.values.shape = lead ++ [sc.pixels.length]) ∧
    (c ≠ 1 → c ≠ sc.pixels.length → sc.pixels.length ≠ 1 → (reflectance nc sc s).1 = .error .valueError) := by
  obtain ⟨herr, hok⟩ := reflectance_result nc s hrsr sc
  rw [hlut] at herr hok
  have hconv : ∀ g : Pixel XF → XF, tb2radianceArr s.conv nc ⟨sc.shape, sc.pixels.map g⟩ none =
      .ok ⟨[sc.pixels.length], sc.pixels.map fun p => R (g p)⟩ := by
    intro g
    have := tb2radianceArr_px hR [sc.pixels.length] sc.pixels hpx g (Or.inr rfl)
    unfold tb2radianceArr at this ⊢
    exact this
  have hrev : sc.shape.reverse = c :: lead.reverse := by rw [hsh]; simp
  have hco : ∃ corr : Arr XF, corrOf ⟨sc.shape, sc.pixels.map Pixel.therm⟩
      (if sc.useCo2 then some ⟨sc.shape, sc.pixels.map Pixel.co2⟩ else none) = .ok corr ∧
      (corr.shape = [] ∨ corr.shape = sc.shape) := by
    cases sc.useCo2 with
    | true => exact ⟨_, by simp only [if_true, corrOf]; exact rad39Corr_px _ _, Or.inr rfl⟩
    | false => exact ⟨Arr.scalar 1.0, rfl, Or.inl rfl⟩
  obtain ⟨corr, hc1, hc2⟩ := hco
  have hret : retrieved s nc none ⟨sc.shape, sc.pixels.map Pixel.zenith⟩ ⟨sc.shape, sc.pixels.map Pixel.nir⟩
      ⟨sc.shape, sc.pixels.map Pixel.therm⟩ (if sc.useCo2 then some ⟨sc.shape, sc.pixels.map Pixel.co2⟩ else none) =
      r3xOf s.conv.rsr_integral s.masking_limit ⟨[sc.pixels.length], sc.pixels.map fun p => R p.therm⟩
        ⟨[sc.pixels.length], sc.pixels.map fun p => R p.nir⟩ corr
        ⟨sc.shape, (sc.pixels.map Pixel.zenith).map (solarRadiancePoint s.solar_flux s.sunz_threshold)⟩
        ⟨sc.shape, sc.pixels.map Pixel.zenith⟩ ⟨sc.shape, sc.pixels.map Pixel.nir⟩ := by
    unfold retrieved
    rw [hconv, hconv]
    simp only [bind, Except.bind, hc1]
    rfl
  rw [hret] at herr hok
  obtain ⟨hb1, hb2⟩ := bshape_flat sc.pixels.length c lead.reverse
  -- the shapes that broadcast, given the common shape `q`
  have good : ∀ q, Arr.bshape [sc.pixels.length] (c :: lead.reverse) = some q →
      Arr.bshape (c :: lead.reverse) q = some q → Arr.bshape [sc.pixels.length] q = some q →
      ∃ out, (reflectance nc sc s).1 = .ok out ∧ out.values.shape = q.reverse := by
    intro q hq hq1 hq2
    rcases hc2 with hcs | hcs
    · obtain ⟨d, hd⟩ := r3xOf_shape s.conv.rsr_integral s.masking_limit
        ⟨[sc.pixels.length], sc.pixels.map fun p => R p.therm⟩ ⟨[sc.pixels.length], sc.pixels.map fun p => R p.nir⟩ corr
        ⟨sc.shape, (sc.pixels.map Pixel.zenith).map (solarRadiancePoint s.solar_flux s.sunz_threshold)⟩
        ⟨sc.shape, sc.pixels.map Pixel.zenith⟩ ⟨sc.shape, sc.pixels.map Pixel.nir⟩ [sc.pixels.length] q
        (by simp [hcs, bshape_nil_right]) ⟨[sc.pixels.length], by simpa using bshape_self _, hq2⟩
        (by simp only [hrev, hb1]; exact hq) (by simp only [hrev]; exact hq1) (by simp only [hrev]; exact hq1)
      obtain ⟨out, h1, h2⟩ := hok _ hd
      exact ⟨out, h1, by rw [h2]⟩
    · obtain ⟨d, hd⟩ := r3xOf_shape s.conv.rsr_integral s.masking_limit
        ⟨[sc.pixels.length], sc.pixels.map fun p => R p.therm⟩ ⟨[sc.pixels.length], sc.pixels.map fun p => R p.nir⟩ corr
        ⟨sc.shape, (sc.pixels.map Pixel.zenith).map (solarRadiancePoint s.solar_flux s.sunz_threshold)⟩
        ⟨sc.shape, sc.pixels.map Pixel.zenith⟩ ⟨sc.shape, sc.pixels.map Pixel.nir⟩ q q
        (by simp only [hcs, hrev, List.reverse_singleton]; exact hq) ⟨q, by simpa using hq2, bshape_self q⟩
        (by simp only [hrev]; exact hq1) (by simp only [hrev]; exact hq1) (by simp only [hrev]; exact hq1)
      obtain ⟨out, h1, h2⟩ := hok _ hd
      exact ⟨out, h1, by rw [h2]⟩
  refine ⟨fun h => ?_, fun h h' => ?_, fun h h' h'' => ?_⟩
  · obtain ⟨out, h1, h2⟩ := good (c :: lead.reverse) (by rw [hb2, if_pos h.symm]) (bshape_self _)
      (by rw [hb2, if_pos h.symm])
    exact ⟨out, h1, by rw [h2]; simp⟩
  · subst h
    obtain ⟨out, h1, h2⟩ := good (sc.pixels.length :: lead.reverse) (by rw [hb2, if_neg h', if_neg h', if_pos rfl])
      (by simp [Arr.bshape, bshape_self, Ne.symm h']) (by simp [Arr.bshape])
    exact ⟨out, h1, by rw [h2]; simp⟩
  · apply herr
    have hnone : Arr.bshape [sc.pixels.length] (c :: lead.reverse) = none := by
      rw [hb2, if_neg (Ne.symm h'), if_neg h'', if_neg h]
    unfold r3xOf
    rcases hc2 with hcs | hcs
    · obtain ⟨d1, e1⟩ := bcast_of_bshape (· * ·)
        (Arr.map (· * s.conv.rsr_integral) ⟨[sc.pixels.length], sc.pixels.map fun p => R p.therm⟩) corr [sc.pixels.length]
        (by simp [Arr.map, hcs, bshape_nil_right])
      simp only [e1, bind, Except.bind]
      obtain ⟨d2, e2⟩ := bcast_of_bshape (· - ·)
        (Arr.map (· * s.conv.rsr_integral) ⟨[sc.pixels.length], sc.pixels.map fun p => R p.nir⟩)
        ⟨[sc.pixels.length].reverse, d1⟩ [sc.pixels.length] (by simpa [Arr.map] using bshape_self _)
      simp only [e2]
      rw [bcast_of_none]
      simp only [hrev, List.reverse_singleton, hb1]
      exact hnone
    · have e1 := bcast_of_none (· * ·)
        (Arr.map (· * s.conv.rsr_integral) ⟨[sc.pixels.length], sc.pixels.map fun p => R p.therm⟩) corr
        (by simp only [Arr.map, hcs, hrev, List.reverse_singleton]; exact hnone)
      simp only [e1, bind, Except.bind]

/-- C97: exactly when the reflectances have the shape of the temperatures (arrays with at least one axis and one
pixel): if there is a table, or if all pixels lie along the last axis. -/
theorem C97_exactly (nc : Int) (s : Nir XF) (R : XF → XF) (hrsr : s.conv.rsr ≠ []) (sc : Scene XF)
    (hR : Converts s.conv nc (sc.lut.getD s.lut) R) (hpx : sc.pixels ≠ []) (hsh : sc.shape ≠ [])
    (hwf : sc.pixels.length = Arr.size sc.shape) :
    (∃ out, (reflectance nc sc s).1 = .ok out ∧ out.values.shape = sc.shape) ↔
      (sc.lut.getD s.lut).isSome = true ∨ sc.shape.getLast? = some sc.pixels.length := by
  cases hl : sc.lut.getD s.lut with
  | some l =>
    refine ⟨fun _ => Or.inl rfl, fun _ => ?_⟩
    obtain ⟨out, s', h1, h2, -⟩ := C97_shape_partial s nc sc R ⟨hrsr, hpx, hsh, hR, Or.inl (by rw [hl]; rfl)⟩
    exact ⟨out, by rw [h1], h2⟩
  | none =>
    rw [hl] at hR
    obtain ⟨lead, c, hs⟩ : ∃ lead c, sc.shape = lead ++ [c] :=
      ⟨sc.shape.dropLast, sc.shape.getLast hsh, (List.dropLast_append_getLast hsh).symm⟩
    obtain ⟨h1, h2, h3⟩ := C97_without_table nc s R hrsr sc hl hR lead c hs hpx
    have hlast : sc.shape.getLast? = some c := by rw [hs]; simp
    have hone : sc.pixels.length = 1 → c = sc.pixels.length := by
      intro h
      have : c ∣ Arr.size sc.shape := by
        rw [hs]
        clear hs h1 h2 h3 hlast
        induction lead with
        | nil => simp [Arr.size]
        | cons a l ih => exact Dvd.dvd.mul_left ih a
      rw [← hwf, h] at this
      rw [h]
      exact Nat.dvd_one.1 this
    rw [hlast]
    constructor
    · rintro ⟨out, ho, hosh⟩
      right
      by_cases hc : c = sc.pixels.length
      · rw [hc]
      · exfalso
        have hn1 : sc.pixels.length ≠ 1 := fun h => hc (hone h)
        by_cases hc1 : c = 1
        · obtain ⟨out', ho', hs'⟩ := h2 hc1 hn1
          rw [ho'] at ho
          have : out' = out := by injection ho
          subst this
          rw [hosh, hs] at hs'
          have := List.append_cancel_left hs'
          simp only [List.cons.injEq, and_true] at this
          exact hc this
        · rw [h3 hc1 hc hn1] at ho
          simp at ho
    · rintro (h | h)
      · simp at h
      · obtain ⟨out, ho, hs'⟩ := h1 (Option.some.inj h)
        exact ⟨out, ho, by rw [hs', hs]⟩

/-- a row of two pixels keeps its shape without a table, a column of three does not -/
example : (∃ out, (reflectance 0 ⟨[1, 2], [exPixel, exPixel], .numpy, .numpy, .numpy, .numpy, true, some none⟩ exNir).1 =
      .ok out ∧ out.values.shape = [1, 2]) ∧
    ¬ (∃ out, (reflectance 0 ⟨[3, 1], [exPixel, exPixel, exPixel], .numpy, .numpy, .numpy, .numpy, true, some none⟩ exNir).1 =
      .ok out ∧ out.values.shape = [3, 1]) := by
  constructor
  · exact (C97_exactly 0 exNir _ (by simp [exNir]) ⟨[1, 2], [exPixel, exPixel], .numpy, .numpy, .numpy, .numpy, true, some none⟩
      exConverts (by simp) (by simp) rfl).2 (Or.inr rfl)
  · rw [C97_exactly 0 exNir _ (by simp [exNir]) ⟨[3, 1], [exPixel, exPixel, exPixel], .numpy, .numpy, .numpy, .numpy, true, some none⟩
      exConverts (by simp) (by simp) rfl]
    simp

end Verif.Props
