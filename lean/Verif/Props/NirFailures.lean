import Verif.Props.NirRetrieval
/-
Property C211 (and C77): calls of `reflectance_from_tbs` that fail.
-/
namespace Verif.Props
open XF Model PyNum Lemmas Spec

section
variable {α : Type} [PyNum α]

/-- a retrieval that fails leaves the last reflectance and emissive part -/
theorem retrieve_failed (s : Nir α) (nc : Int) (lut : Option (Lut α)) (z n t : Arr α) (co2 : Option (Arr α)) (e : PyErr)
    (h : (Nir.retrieve nc lut z n t co2 s).1 = .error e) :
    (Nir.retrieve nc lut z n t co2 s).2.r3x = s.r3x ∧ (Nir.retrieve nc lut z n t co2 s).2.e3x = s.e3x := by
  revert h
  unfold Nir.retrieve
  cases h1 : tb2radianceArr s.conv nc t lut with
  | error e =>
    have : Nir.setRadiances nc lut n t s = (.error e, s) := by
      unfold Nir.setRadiances
      rw [st_bind_ok (st_get s), st_bind_error (st_lift_error h1 s)]
    rw [st_bind_error this]
    exact fun _ => ⟨rfl, rfl⟩
  | ok t11 =>
    cases h2 : tb2radianceArr s.conv nc n lut with
    | error e =>
      have : Nir.setRadiances nc lut n t s = (.error e, { s with rad3x_t11 := some t11 }) := by
        unfold Nir.setRadiances
        rw [st_bind_ok (st_get s), st_bind_ok (st_lift_ok h1 s), st_bind_ok (st_modify _ s),
          st_bind_error (st_lift_error h2 _)]
      rw [st_bind_error this]
      exact fun _ => ⟨rfl, rfl⟩
    | ok r =>
      have : Nir.setRadiances nc lut n t s =
          (.ok (t11, r), { s with rad3x_t11 := some t11, rad3x := some r }) := by
        unfold Nir.setRadiances
        rw [st_bind_ok (st_get s), st_bind_ok (st_lift_ok h1 s), st_bind_ok (st_modify _ s),
          st_bind_ok (st_lift_ok h2 _), st_bind_ok (st_modify _ _)]
        rfl
      rw [st_bind_ok this, st_bind_ok (st_get _)]
      dsimp only
      rw [st_bind_ok (st_modify _ _)]
      cases h3 : corrOf t co2 with
      | error e =>
        rw [st_bind_error (e := e) (by rw [calcCorr_run, h3])]
        exact fun _ => ⟨rfl, rfl⟩
      | ok v =>
        rw [st_bind_ok (a := ()) (by rw [calcCorr_run, h3]), st_bind_ok (st_get _)]
        dsimp only
        cases h4 : r3xOf s.conv.rsr_integral s.masking_limit t11 r v
            (z.map (solarRadiancePoint s.solar_flux s.sunz_threshold)) z n with
        | error e =>
          rw [st_bind_error (st_lift_error rfl _)]
          exact fun _ => ⟨rfl, rfl⟩
        | ok v2 =>
          rw [st_bind_ok (st_lift_ok rfl _), st_bind_ok (st_modify _ _)]
          exact fun h => by cases h

theorem reflectance_failed (nc : Int) (z n t : NirIn α) (c : Option (NirIn α)) (l : Option (Option (Lut α))) (s : Nir α) (e : PyErr)
    (h : (Nir.reflectanceFromTbs nc z n t c l s).1 = .error e) :
    (Nir.reflectanceFromTbs nc z n t c l s).2.r3x = s.r3x ∧ (Nir.reflectanceFromTbs nc z n t c l s).2.e3x = s.e3x := by
  revert h
  unfold Nir.reflectanceFromTbs
  rw [st_bind_ok (st_get s)]
  split
  · exact fun _ => ⟨rfl, rfl⟩
  split
  · exact fun _ => ⟨rfl, rfl⟩
  rcases h1 : Nir.retrieve nc (l.getD s.lut) z.asArray n.asArray t.asArray (c.map NirIn.asArray) s with ⟨r, s'⟩
  cases r with
  | error e' =>
    rw [st_bind_error h1]
    intro _
    have := retrieve_failed s nc (l.getD s.lut) z.asArray n.asArray t.asArray (c.map NirIn.asArray) e' (by rw [h1])
    rw [h1] at this
    exact this
  | ok v =>
    rw [st_bind_ok h1]
    exact fun h => by cases h

/-! ### C77 after any history -/

/-- a history of calls on a calculator in which no reflectance is obtained -/
def NoReflectance (nc : Int) : Nir α → List (NirCall α) → Prop
  | _, [] => True
  | s, x :: xs => (match x with
      | .reflectance z n t c l => ∃ e, (Nir.reflectanceFromTbs nc z n t c l s).1 = .error e
      | _ => True) ∧ NoReflectance nc (x.run nc s) xs

/-- C77, after any history: as long as no reflectance was obtained (whether or not it was asked for), the emissive part as
temperature raises, and as radiance is None. -/
theorem C77_history (nc : Int) (s : Nir α) (hr : s.r3x = none) (he : s.e3x = none) (calls : List (NirCall α))
    (h : NoReflectance nc s calls) :
    let s' := calls.foldl (NirCall.run nc) s
    (∃ e, Nir.emissivePart3x true s' = (.error e, s')) ∧ Nir.emissivePart3x false s' = (.ok none, s') := by
  have key : ∀ (calls : List (NirCall α)) (s : Nir α), s.r3x = none → s.e3x = none → NoReflectance nc s calls →
      (calls.foldl (NirCall.run nc) s).r3x = none ∧ (calls.foldl (NirCall.run nc) s).e3x = none := by
    intro calls
    induction calls with
    | nil => exact fun s h1 h2 _ => ⟨h1, h2⟩
    | cons x xs ih =>
      intro s h1 h2 h3
      refine ih _ ?_ ?_ h3.2
      · cases x with
        | reflectance z n t c l =>
          obtain ⟨e, he⟩ := h3.1
          exact (reflectance_failed nc z n t c l s e he).1.trans h1
        | correction a b m =>
          show (Nir.deriveRad39Corr a b m s).2.r3x = none
          unfold Nir.deriveRad39Corr
          split
          · exact h1
          · cases h : rad39Corr a b <;> exact h1
        | emissive tb =>
          show (Nir.emissivePart3x tb s).2.r3x = none
          cases tb with
          | true => obtain ⟨e, h4⟩ := (C77_temperature_raises s h1 h2).1; rw [h4]; exact h1
          | false => rw [C77_radiance_partial s h1 h2]; exact h1
      · cases x with
        | reflectance z n t c l =>
          obtain ⟨e, he⟩ := h3.1
          exact (reflectance_failed nc z n t c l s e he).2.trans h2
        | correction a b m =>
          show (Nir.deriveRad39Corr a b m s).2.e3x = none
          unfold Nir.deriveRad39Corr
          split
          · exact h2
          · cases h : rad39Corr a b <;> exact h2
        | emissive tb =>
          show (Nir.emissivePart3x tb s).2.e3x = none
          cases tb with
          | true => obtain ⟨e, h4⟩ := (C77_temperature_raises s h1 h2).1; rw [h4]; exact h2
          | false => rw [C77_radiance_partial s h1 h2]; exact h2
  obtain ⟨h1, h2⟩ := key calls s hr he h
  exact ⟨(C77_temperature_raises _ h1 h2).1, C77_radiance_partial _ h1 h2⟩

/-! ### C211 -/

/-- C211, the part that holds: a call that fails because there are no response data, because the temperature arrays have different
shapes or because the thermal temperatures cannot be converted leaves the object as it was, and so the emissive part.  What is
missing: calls that fail later (`C211_mixed`). -/
theorem C211_unchanged_partial (nc : Int) (z n t : NirIn α) (c : Option (NirIn α)) (l : Option (Option (Lut α))) (s : Nir α)
    (h : s.conv.rsr = [] ∨ t.asArray.shape ≠ n.asArray.shape ∨ ∃ e, tb2radianceArr s.conv nc t.asArray (l.getD s.lut) = .error e) :
    ∃ e, Nir.reflectanceFromTbs nc z n t c l s = (.error e, s) := by
  unfold Nir.reflectanceFromTbs
  rw [st_bind_ok (st_get s)]
  split
  · exact ⟨_, rfl⟩
  rename_i h1
  split
  · exact ⟨_, rfl⟩
  rename_i h2
  rcases h with h | h | ⟨e, h⟩
  · rw [h] at h1; exact absurd rfl h1
  · exact absurd h h2
  · have h3 : Nir.setRadiances nc (l.getD s.lut) n.asArray t.asArray s = (.error e, s) := by
      unfold Nir.setRadiances
      rw [st_bind_ok (st_get s), st_bind_error (st_lift_error h s)]
    have h4 : Nir.retrieve nc (l.getD s.lut) z.asArray n.asArray t.asArray (c.map NirIn.asArray) s = (.error e, s) := by
      unfold Nir.retrieve
      rw [st_bind_error h3]
    exact ⟨e, st_bind_error h4⟩

theorem bcast_lengths {A B C : Type} (f : A → B → C) (a b : Nat) (xs : List A) (ys : List B) (hab : a ≠ b) (ha : a ≠ 1) (hb : b ≠ 1) :
    Arr.bcast f ⟨[a], xs⟩ ⟨[b], ys⟩ = .error .valueError := by
  unfold Arr.bcast
  simp [hab, ha, hb, Arr.bshape]

/-- C211 is false of the code.  A retrieval succeeds; the next one, of as many pixels, fails because there are not as many sun
zenith angles.  The emissive part is then the one of neither: it is made of the new radiances and the old reflectances. -/
theorem C211_mixed (s : Nir α) (nc : Int) (sc : Scene α) (R : α → α) (h : NirUsable s nc sc R)
    (px : List (Pixel α × (α × α))) (hpx : sc.pixels = px.map Prod.fst) (hsh : sc.shape = [px.length])
    (zs : List α) (hz : zs.length ≠ px.length) (hz1 : zs.length ≠ 1) (hp1 : px.length ≠ 1) (kz kn kt : ArrKind) :
    ∃ (out : NirOut α) (s1 s2 s3 : Nir α) (r : Pixel α → α), reflectance nc sc s = (.ok out, s1) ∧
      out.values = ⟨[px.length], px.map fun p => r p.1⟩ ∧
      Nir.reflectanceFromTbs nc (.array kz ⟨[zs.length], zs⟩) (.array kn ⟨[px.length], px.map fun p => p.2.2⟩)
        (.array kt ⟨[px.length], px.map fun p => p.2.1⟩) none sc.lut s1 = (.error .valueError, s2) ∧
      Nir.emissivePart3x false s2 = (.ok (some ⟨[px.length], px.map fun p =>
        if isNaN (R p.2.1 * (1 - r p.1)) then R p.2.2 else R p.2.1 * (1 - r p.1)⟩), s3) := by
  obtain ⟨out, h1, h2⟩ := reflectance_run s nc sc R h
  have hne : px ≠ [] := by
    rintro rfl
    exact h.pixels (by rw [hpx]; rfl)
  generalize hr : pxValue s.conv.rsr_integral s.solar_flux s.sunz_threshold s.masking_limit R sc.useCo2 = r at h2
  rw [hpx, hsh, List.map_map] at h2
  generalize hs1 : afterRetrieval s R sc.useCo2 sc.shape sc.pixels = s1 at h1
  have hconv : s1.conv = s.conv := by rw [← hs1]; rfl
  have hlut : s1.lut = s.lut := by rw [← hs1]; rfl
  have hr3 : s1.r3x = some ⟨[px.length], px.map fun p => r p.1⟩ := by
    rw [← hs1, ← hr]
    unfold afterRetrieval
    dsimp only
    rw [hpx, hsh, List.map_map]
    rfl
  have ht : tb2radianceArr s1.conv nc ⟨[px.length], px.map fun p => p.2.1⟩ (sc.lut.getD s1.lut) =
      .ok ⟨[px.length], px.map fun p => R p.2.1⟩ := by
    rw [hconv, hlut]
    exact tb2radianceArr_px h.converts _ px hne _ (Or.inr rfl)
  have hn : tb2radianceArr s1.conv nc ⟨[px.length], px.map fun p => p.2.2⟩ (sc.lut.getD s1.lut) =
      .ok ⟨[px.length], px.map fun p => R p.2.2⟩ := by
    rw [hconv, hlut]
    exact tb2radianceArr_px h.converts _ px hne _ (Or.inr rfl)
  have hset : Nir.setRadiances nc (sc.lut.getD s1.lut) ⟨[px.length], px.map fun p => p.2.2⟩
      ⟨[px.length], px.map fun p => p.2.1⟩ s1 =
      (.ok (⟨[px.length], px.map fun p => R p.2.1⟩, ⟨[px.length], px.map fun p => R p.2.2⟩),
        { s1 with rad3x_t11 := some ⟨[px.length], px.map fun p => R p.2.1⟩, rad3x := some ⟨[px.length], px.map fun p => R p.2.2⟩ }) := by
    unfold Nir.setRadiances
    rw [st_bind_ok (st_get _), st_bind_ok (st_lift_ok ht _), st_bind_ok (st_modify _ _),
      st_bind_ok (st_lift_ok hn _), st_bind_ok (st_modify _ _)]
    rfl
  have hret : ∃ s2, Nir.retrieve nc (sc.lut.getD s1.lut) ⟨[zs.length], zs⟩ ⟨[px.length], px.map fun p => p.2.2⟩
      ⟨[px.length], px.map fun p => p.2.1⟩ none s1 = (.error .valueError, s2) ∧
      s2.rad3x_t11 = some ⟨[px.length], px.map fun p => R p.2.1⟩ ∧ s2.rad3x = some ⟨[px.length], px.map fun p => R p.2.2⟩ ∧
      s2.r3x = s1.r3x := by
    unfold Nir.retrieve
    rw [st_bind_ok hset, st_bind_ok (st_get _)]
    dsimp only
    rw [st_bind_ok (st_modify _ _), st_bind_ok (a := ()) (by rw [calcCorr_run]; rfl), st_bind_ok (st_get _)]
    dsimp only
    rw [st_bind_error (e := .valueError) (st_lift_error (by
      unfold r3xOf
      have e1 : Arr.bcast (· * ·) (Arr.map (· * s1.conv.rsr_integral) ⟨[px.length], px.map fun p => R p.2.1⟩) (Arr.scalar (1.0 : α)) =
          .ok ⟨[px.length], ((px.map fun p => R p.2.1).map (· * s1.conv.rsr_integral)).map (· * (1.0 : α))⟩ := rfl
      have e2 : ∀ xs ys : List α, Arr.bcast (· - ·) (⟨[px.length], xs⟩ : Arr α) ⟨[px.length], ys⟩ =
          .ok ⟨[px.length], List.zipWith (· - ·) xs ys⟩ := fun xs ys => by unfold Arr.bcast; rw [if_pos rfl]
      simp only [bind, Except.bind, e1]
      rw [show (Arr.map (· * s1.conv.rsr_integral) ⟨[px.length], px.map fun p => R p.2.2⟩ : Arr α) =
        ⟨[px.length], (px.map fun p => R p.2.2).map (· * s1.conv.rsr_integral)⟩ from rfl, e2]
      dsimp only
      rw [show (Arr.map (solarRadiancePoint s1.solar_flux s1.sunz_threshold) ⟨[zs.length], zs⟩ : Arr α) =
        ⟨[zs.length], zs.map (solarRadiancePoint s1.solar_flux s1.sunz_threshold)⟩ from rfl, bcast_lengths _ _ _ _ _ hz hz1 hp1]) _)]
    exact ⟨_, rfl, rfl, rfl, rfl⟩
  obtain ⟨s2, hret, k1, k2, k3⟩ := hret
  have hcall : Nir.reflectanceFromTbs nc (.array kz ⟨[zs.length], zs⟩) (.array kn ⟨[px.length], px.map fun p => p.2.2⟩)
      (.array kt ⟨[px.length], px.map fun p => p.2.1⟩) none sc.lut s1 = (.error .valueError, s2) := by
    have hrsr : s1.conv.rsr.isEmpty = false := by
      rw [hconv]
      have := h.rsr
      cases hh : s.conv.rsr <;> simp_all
    unfold Nir.reflectanceFromTbs
    rw [st_bind_ok (st_get s1)]
    simp only [hrsr, Bool.false_eq_true, if_false, NirIn.asArray, ne_eq, not_true_eq_false]
    exact st_bind_error hret
  have hem : ∃ s3, Nir.emissivePart3x false s2 = (.ok (some ⟨[px.length], px.map fun p =>
        if isNaN (R p.2.1 * (1 - r p.1)) then R p.2.2 else R p.2.1 * (1 - r p.1)⟩), s3) := by
    unfold Nir.emissivePart3x
    rw [st_bind_ok (st_get _), k1, k2, k3, hr3]
    have : ∃ s3, Nir.setEmissive ⟨[px.length], px.map fun p => R p.2.1⟩ ⟨[px.length], px.map fun p => r p.1⟩
        ⟨[px.length], px.map fun p => R p.2.2⟩ s2 = (.ok (), s3) ∧ s3.e3x = some ⟨[px.length], px.map fun p =>
        if isNaN (R p.2.1 * (1 - r p.1)) then R p.2.2 else R p.2.1 * (1 - r p.1)⟩ := by
      unfold Nir.setEmissive
      rw [map_px, bcast_px]
      rw [st_bind_ok (st_lift_ok rfl _), st_bind_ok (st_modify _ _), map_px, bcast_px, st_bind_ok (st_lift_ok rfl _)]
      exact ⟨_, rfl, rfl⟩
    obtain ⟨s3, h3, h4⟩ := this
    rw [st_bind_ok (a := ()) h3, st_bind_ok (st_get _), h4]
    exact ⟨_, rfl⟩
  obtain ⟨s3, hem⟩ := hem
  exact ⟨out, s1, s2, s3, r, h1, h2, hcall, hem⟩

theorem history_settings (nc : Int) (calls : List (NirCall α)) (u : Nir α) :
    SameSettings u (calls.foldl (NirCall.run nc) u) := by
  induction calls generalizing u with
  | nil => exact SameSettings.refl u
  | cons x xs ih =>
    refine SameSettings.trans ?_ (ih _)
    cases x with
    | reflectance z n t c l => exact (reflectance_settings nc z n t c l u u (SameSettings.refl u)).2
    | correction a b m => exact derive_run a b m u
    | emissive tb => exact emissive_settings tb u

/-- C211, the next success: whatever calls were made before, whether or not they raised, a retrieval and the emissive part after it
are those of an object on which no call was made.  So what a failed call leaves behind lasts until the next success only. -/
theorem C211_next_success (s : Nir α) (nc : Int) (sc : Scene α) (R : α → α) (h : NirUsable s nc sc R) (calls : List (NirCall α)) :
    ∃ (out : NirOut α) (e : Arr α) (s1 s2 u1 u2 : Nir α),
      reflectance nc sc s = (.ok out, s1) ∧ Nir.emissivePart3x false s1 = (.ok (some e), s2) ∧
      reflectance nc sc (calls.foldl (NirCall.run nc) s) = (.ok out, u1) ∧ Nir.emissivePart3x false u1 = (.ok (some e), u2) := by
  have hs := history_settings nc calls s
  generalize calls.foldl (NirCall.run nc) s = u at hs
  have hu : NirUsable u nc sc R :=
    ⟨by rw [hs.conv]; exact h.rsr, h.pixels, h.shape, by rw [hs.conv, hs.lut]; exact h.converts, by rw [hs.lut]; exact h.flat⟩
  obtain ⟨out, h1, _⟩ := reflectance_run s nc sc R h
  obtain ⟨out', g1, _⟩ := reflectance_run u nc sc R hu
  obtain ⟨s2, h3⟩ := emissive_run s R sc.useCo2 sc.shape sc.pixels
  obtain ⟨u2, g3⟩ := emissive_run u R sc.useCo2 sc.shape sc.pixels
  have he : pxEmissive u R sc.useCo2 = pxEmissive s R sc.useCo2 := by
    funext p
    unfold pxEmissive
    rw [hs.conv, hs.flux, hs.thr, hs.limit]
  have ho : out' = out := by
    have hh := (reflectance_settings nc _ _ _ _ sc.lut s u hs).1.symm.trans (congrArg Prod.fst g1)
    have := (congrArg Prod.fst h1).symm.trans hh
    injection this with this
    exact this.symm
  rw [ho] at g1
  rw [he] at g3
  exact ⟨out, _, _, s2, _, u2, h1, h3, g1, g3⟩

end

/-- temperature arrays of different shapes, after asking for the emissive part -/
example (nc : Int) : exNir.r3x = none ∧ exNir.e3x = none ∧ NoReflectance nc exNir
    [.emissive false, .reflectance (.array .numpy ⟨[1], [fin 0]⟩) (.array .numpy ⟨[1], [fin 300]⟩)
      (.array .numpy ⟨[2], [fin 300, fin 300]⟩) none none] := by
  refine ⟨rfl, rfl, trivial, ?_, trivial⟩
  obtain ⟨e, he⟩ := C211_unchanged_partial nc (.array .numpy ⟨[1], [fin 0]⟩) (.array .numpy ⟨[1], [fin 300]⟩)
    (.array .numpy ⟨[2], [fin 300, fin 300]⟩) none none (NirCall.run nc exNir (.emissive false))
    (Or.inr (Or.inl (by simp [NirIn.asArray])))
  exact ⟨e, by rw [he]⟩

/-- a scene of one day pixel after a call with no data that match -/
example (nc : Int) := C211_next_success exNir nc ⟨[1], [exPixel], .numpy, .numpy, .numpy, .numpy, false, none⟩ (exR nc)
  ⟨by simp [exNir], by simp, by simp, converts_lut exNir.conv nc _ 1500 exGoodLut, Or.inl rfl⟩
  [.reflectance (.array .numpy ⟨[1], [fin 0]⟩) (.array .numpy ⟨[1], [fin 300]⟩) (.array .numpy ⟨[2], [fin 300, fin 300]⟩) none none]

/-- two day pixels, each a cold surface; then a failing call for two hot ones -/
example (nc : Int) : ∃ (out : NirOut XF) (s1 s2 s3 s4 : Nir XF) (ρ : ℝ), ρ = 1 / 9 ∧
    reflectance nc ⟨[2], [exPixel, exPixel], .numpy, .numpy, .numpy, .numpy, false, none⟩ exNir = (.ok out, s1) ∧
    out.values = ⟨[2], [fin ρ, fin ρ]⟩ ∧
    Nir.emissivePart3x false s1 = (.ok (some ⟨[2], [fin (1e5 * (1 - ρ)), fin (1e5 * (1 - ρ))]⟩), s4) ∧
    Nir.reflectanceFromTbs nc (.array .numpy ⟨[3], [fin 0, fin 0, fin 0]⟩) (.array .numpy ⟨[2], [fin 400, fin 400]⟩)
      (.array .numpy ⟨[2], [fin 400, fin 400]⟩) none none s1 = (.error .valueError, s2) ∧
    Nir.emissivePart3x false s2 = (.ok (some ⟨[2], [fin (2e5 * (1 - ρ)), fin (2e5 * (1 - ρ))]⟩), s3) := by
  have hu : NirUsable exNir nc ⟨[2], [exPixel, exPixel], .numpy, .numpy, .numpy, .numpy, false, none⟩ (exR nc) :=
    ⟨by simp [exNir], by simp, by simp, converts_lut exNir.conv nc _ 1500 exGoodLut, Or.inl rfl⟩
  obtain ⟨out, s1, s2, s3, r, h1, h2, h3, h4⟩ := C211_mixed exNir nc _ (exR nc) hu
    [(exPixel, (fin 400, fin 400)), (exPixel, (fin 400, fin 400))] rfl rfl [fin 0, fin 0, fin 0] (by decide) (by decide) (by decide)
    .numpy .numpy .numpy
  obtain ⟨out1, _, r1, g1, g2, g3⟩ := C71_not_masked exNir nc _ _ hu 1e-6 Real.pi 85 exIntegral rfl rfl
  rw [h1] at g1
  cases g1
  obtain ⟨ρ, hρ⟩ := g3 exPixel (by simp) 0 2e5 1e5 100 100 rfl rfl (exR_hot nc) (exR_cold nc) (by simp)
    (Or.inr ⟨85, rfl, by norm_num, by norm_num⟩) (by rw [exSunlight]; norm_num)
  obtain ⟨out2, s4, s5, r2, e2, b1, b2, b3, b4⟩ := C76_emissive exNir nc _ _ hu 1e-6 Real.pi 85 exIntegral rfl rfl
  rw [h1] at b1
  cases b1
  have hr : r exPixel = fin ρ := by
    have := h2.symm.trans g2
    simp only [Arr.mk.injEq, List.map_cons, List.map_nil, List.cons.injEq] at this
    rw [this.2.1, hρ]
  have hr2 : r2 exPixel = fin ρ := by
    have := b2.symm.trans h2
    simp only [Arr.mk.injEq, List.map_cons, List.map_nil, List.cons.injEq] at this
    rw [this.2.1, hr]
  have hval : ρ = 1 / 9 := by
    obtain ⟨o, s', r', c1, c2, c3⟩ := C70_radiance_balance exNir nc _ _ hu 1e-6 Real.pi 85 exIntegral rfl rfl
    rw [h1] at c1
    cases c1
    have hr' : r' exPixel = fin ρ := by
      have := c2.symm.trans h2
      simp only [Arr.mk.injEq, List.map_cons, List.map_nil, List.cons.injEq] at this
      rw [this.2.1, hr]
    have := c3 exPixel (by simp) ρ 0 2e5 1e5 100 100 hr' rfl (exR_hot nc) (exR_cold nc) (by simp)
    rw [exSunlight] at this
    norm_num at this
    linarith
  have he2 : e2 exPixel = fin (1e5 * (1 - ρ)) := (b4 exPixel (by simp)).2.1 ρ 1e5 hr2 (exR_cold nc)
  refine ⟨out, s1, s2, s3, s5, ρ, hval, h1, ?_, ?_, h3, ?_⟩
  · rw [h2]; simp [hr]
  · rw [b3]; simp [he2]
  · rw [h4]
    have : exR nc (fin 400) * (1 - fin ρ) = fin (2e5 * (1 - ρ)) := by
      rw [exR_hot]; simp
    have e : isNaN (fin (2e5 * (1 - ρ)) : XF) = false := rfl
    simp only [List.map_cons, List.map_nil, List.length_cons, List.length_nil, hr, this, e, Bool.false_eq_true, if_false]

end Verif.Props
