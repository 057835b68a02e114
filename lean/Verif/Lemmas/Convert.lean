import Verif.Spec.Convert
import Verif.Lemmas.Dict
import Verif.Lemmas.Writer
/-
Lemmas on the conversion of original response files.
-/
namespace Verif.Lemmas
open Model Spec PyNum
variable {α : Type} [PyNum α]

/-! ### Words -/

theorem wordsL_spec (cs : List Char) : WordsOf cs (Str.wordsL cs) := by
  induction cs with
  | nil => exact .nil
  | cons c cs ih =>
    unfold Str.wordsL
    dsimp only
    by_cases hc : Str.isSpace c = true
    · rw [if_pos hc]; exact .space hc ih
    · rw [if_neg hc]
      have hc : Str.isSpace c = false := by simpa using hc
      by_cases hd : (cs.head?.map Str.isSpace).getD true = true
      · rw [if_pos hd]
        refine .word (p := [c]) (cs := cs) (by simp) (by simpa using hc) ?_ ih
        intro d hd'
        rw [hd'] at hd
        exact hd
      · rw [if_neg hd]
        generalize Str.wordsL cs = W at ih
        cases ih with
        | nil => simp at hd
        | space hsp _ => exact absurd hsp hd
        | @word p cs ws hne hp hcs hrest =>
          show WordsOf (c :: (p ++ cs)) ((c :: p) :: ws)
          rw [← List.cons_append]
          exact .word (by simp) (by
            intro x hx
            rcases List.mem_cons.1 hx with rfl | hx
            · exact hc
            · exact hp x hx) hcs hrest

theorem wordsOf_unique {cs : List Char} {w₁ w₂ : List (List Char)} (h₁ : WordsOf cs w₁) (h₂ : WordsOf cs w₂) :
    w₁ = w₂ := by
  induction h₁ generalizing w₂ with
  | nil =>
    generalize hx : ([] : List Char) = X at h₂
    cases h₂ with
    | nil => rfl
    | space _ _ => cases hx
    | word hne _ _ _ => exact absurd (List.append_eq_nil_iff.1 hx.symm).1 hne
  | @space c cs ws hc _ ih =>
    generalize hx : c :: cs = X at h₂
    cases h₂ with
    | nil => cases hx
    | space _ h => injection hx with _ h2; subst h2; exact ih h
    | @word p cs' ws' hne hp _ _ =>
      cases p with
      | nil => exact absurd rfl hne
      | cons a p =>
        injection hx with h1 _
        subst h1
        have := hp c (by simp)
        rw [hc] at this; cases this
  | @word p cs ws hne hp hcs _ ih =>
    generalize hx : p ++ cs = X at h₂
    cases h₂ with
    | nil => exact absurd (List.append_eq_nil_iff.1 hx).1 hne
    | @space c cs' ws' hc _ =>
      cases p with
      | nil => exact absurd rfl hne
      | cons a p =>
        injection hx with h1 _
        subst h1
        have := hp a (by simp)
        rw [hc] at this; cases this
    | @word p' cs' ws' hne' hp' hcs' h =>
      have key : ∀ (p p' cs cs' : List Char), (∀ c ∈ p, Str.isSpace c = false) → (∀ c ∈ p', Str.isSpace c = false) →
          (∀ c, cs.head? = some c → Str.isSpace c = true) → (∀ c, cs'.head? = some c → Str.isSpace c = true) →
          p ++ cs = p' ++ cs' → p = p' ∧ cs = cs' := by
        intro p
        induction p with
        | nil =>
          intro p' cs cs' _ hp' hcs _ he
          cases p' with
          | nil => exact ⟨rfl, he⟩
          | cons a p' =>
            have h1 := hcs a (by rw [List.nil_append] at he; rw [he]; rfl)
            rw [hp' a (by simp)] at h1; cases h1
        | cons a p ihp =>
          intro p' cs cs' hp hp' hcs hcs' he
          cases p' with
          | nil =>
            have h1 := hcs' a (by rw [List.nil_append] at he; rw [← he]; rfl)
            rw [hp a (by simp)] at h1; cases h1
          | cons b p' =>
            injection he with h1 h2
            subst h1
            obtain ⟨r1, r2⟩ := ihp p' cs cs' (fun c hc => hp c (by simp [hc])) (fun c hc => hp' c (by simp [hc])) hcs hcs' h2
            exact ⟨by rw [r1], r2⟩
      obtain ⟨rfl, rfl⟩ := key _ _ _ _ hp hp' hcs hcs' hx
      rw [ih h]

theorem wordsL_iff (cs : List Char) (ws : List (List Char)) : Str.wordsL cs = ws ↔ WordsOf cs ws :=
  ⟨fun h => h ▸ wordsL_spec cs, fun h => wordsOf_unique (wordsL_spec cs) h⟩

theorem words_four (s a b c d : String) :
    Str.words s = [a, b, c, d] ↔ WordsOf s.toList [a.toList, b.toList, c.toList, d.toList] := by
  rw [← wordsL_iff]
  unfold Str.words
  constructor
  · intro h
    have := congrArg (List.map String.toList) h
    simpa [List.map_map, Function.comp_def] using this
  · intro h; rw [h]; simp

theorem startsWith_char (s : String) (c : Char) (p : String) (hp : p.toList = [c]) :
    Str.startsWith s p = true ↔ s.toList.head? = some c := by
  unfold Str.startsWith
  rw [hp]
  cases s.toList with
  | nil => simp
  | cons a l =>
    simp only [List.isPrefixOf, Bool.and_true, beq_iff_eq, List.head?_cons, Option.some.injEq]
    exact ⟨fun h => h.symm, fun h => h.symm⟩

/-! ### Names of detectors -/

theorem intRepr_inj {m n : Int} (h : toString m = toString n) : m = n := by
  have hd : ∀ k : Nat, ∀ c ∈ (Nat.repr k).toList, c ≠ '-' := by
    intro k c hc
    rw [Nat.repr_eq_ofList_toDigits, String.toList_ofList] at hc
    have := Nat.isDigit_of_mem_toDigits (by decide) (by decide) hc
    rintro rfl
    exact absurd this (by decide)
  have hneg : ∀ k : Nat, ("-" ++ Nat.repr k).toList = '-' :: (Nat.repr k).toList := by
    intro k; simp
  have h : Int.repr m = Int.repr n := h
  cases m with
  | ofNat a =>
    cases n with
    | ofNat b => exact congrArg Int.ofNat (Nat.repr_inj.1 h)
    | negSucc b =>
      have h : Nat.repr a = "-" ++ Nat.repr (b + 1) := h
      have := congrArg String.toList h
      rw [hneg] at this
      exact absurd rfl (hd a '-' (by rw [this]; simp))
  | negSucc a =>
    cases n with
    | ofNat b =>
      have h : "-" ++ Nat.repr (a + 1) = Nat.repr b := h
      have := congrArg String.toList h
      rw [hneg] at this
      exact absurd rfl (hd b '-' (by rw [← this]; simp))
    | negSucc b =>
      have h : "-" ++ Nat.repr (a + 1) = "-" ++ Nat.repr (b + 1) := h
      have := congrArg String.toList h
      rw [hneg, hneg] at this
      injection this with _ h2
      have := Nat.repr_inj.1 (String.ext h2)
      have : a = b := by omega
      rw [this]

theorem detKey_inj {m n : Int} (h : detKey m = detKey n) : m = n := by
  unfold detKey at h
  refine intRepr_inj ?_
  have := congrArg String.toList h
  simp only [String.toList_append, List.append_cancel_left_eq] at this
  exact String.ext this

/-! ### MODIS files -/

/-- what a sample does to the data collected so far -/
def addRecord (scale : α) (d : Dict String (RawCurve α)) (s : ModisRecord α) : Dict String (RawCurve α) :=
  d.set (detKey s.det)
    ⟨((d.get? (detKey s.det)).getD ⟨[], []⟩).wavelength ++ [s.wvl * scale],
     ((d.get? (detKey s.det)).getD ⟨[], []⟩).response ++ [s.resp]⟩

theorem modisLine_comment (P : Parsers α) (scale : α) (d : Dict String (RawCurve α)) (l : String) (h : IsComment l) :
    modisLine P scale d l = .ok d := by
  unfold modisLine
  rw [if_pos ((startsWith_char l '#' "#" (by decide)).2 h)]

theorem modisLine_record (P : Parsers α) (scale : α) (d : Dict String (RawCurve α)) (l : String) (s : ModisRecord α)
    (h : IsRecord P l s) : modisLine P scale d l = .ok (addRecord scale d s) := by
  obtain ⟨hc, a, b, c, e, hw, h1, h2, h3⟩ := h
  have hw' : Str.words l = [String.ofList a, String.ofList b, String.ofList c, String.ofList e] := by
    rw [words_four]; simpa using hw
  unfold modisLine
  rw [if_neg (fun hs => hc ((startsWith_char l '#' "#" (by decide)).1 hs)), hw']
  simp only [h1, h2, h3, bind, Except.bind]
  rfl

/-- a line that is neither raises -/
theorem modisLine_bad (P : Parsers α) (hP : (∀ s e, P.int s = .error e → e = .valueError) ∧
    (∀ s e, P.float s = .error e → e = .valueError)) (scale : α) (d : Dict String (RawCurve α)) (l : String)
    (hc : ¬ IsComment l) (h : ∀ s, ¬ IsRecord P l s) : modisLine P scale d l = .error .valueError := by
  unfold modisLine
  rw [if_neg (fun hs => hc ((startsWith_char l '#' "#" (by decide)).1 hs))]
  split
  · next x b c e hw =>
    cases hb : P.int b with
    | error er => rw [hP.1 _ _ hb]; rfl
    | ok n =>
      cases hcf : P.float c with
      | error er => rw [hP.2 _ _ hcf]; rfl
      | ok w =>
        cases he : P.float e with
        | error er => rw [hP.2 _ _ he]; rfl
        | ok r =>
          exact absurd ⟨hc, x.toList, b.toList, c.toList, e.toList, (words_four l x b c e).1 hw,
            by simpa using hb, by simpa using hcf, by simpa using he⟩ (h ⟨n, w, r⟩)
  · rfl

theorem modisLines_run (P : Parsers α) (scale : α) (ls : List String) (rs : List (ModisRecord α)) (h : Records P ls rs) :
    ∀ d, ls.foldlM (modisLine P scale) d = .ok (rs.foldl (addRecord scale) d) := by
  induction h with
  | nil => intro d; rfl
  | comment hl _ ih =>
    intro d
    rw [List.foldlM_cons, modisLine_comment P scale d _ hl]
    exact ih d
  | sample hl _ ih =>
    intro d
    rw [List.foldlM_cons, modisLine_record P scale d _ _ hl, List.foldl_cons]
    exact ih _

theorem modisLines_cases (P : Parsers α) (hP : (∀ s e, P.int s = .error e → e = .valueError) ∧
    (∀ s e, P.float s = .error e → e = .valueError)) (scale : α) (ls : List String) :
    (∃ rs, Records P ls rs) ∨ ((¬ ∃ rs, Records P ls rs) ∧ ∀ d, ls.foldlM (modisLine P scale) d = .error .valueError) := by
  induction ls with
  | nil => exact Or.inl ⟨[], .nil⟩
  | cons l ls ih =>
    by_cases hc : IsComment l
    · rcases ih with ⟨rs, h⟩ | ⟨hn, h⟩
      · exact Or.inl ⟨rs, .comment hc h⟩
      · refine Or.inr ⟨?_, ?_⟩
        · rintro ⟨rs, hr⟩
          cases hr with
          | comment _ h' => exact hn ⟨_, h'⟩
          | sample hl _ => exact hl.1 hc
        · intro d
          rw [List.foldlM_cons, modisLine_comment P scale d _ hc]
          exact h d
    · by_cases hr : ∃ s, IsRecord P l s
      · obtain ⟨s, hs⟩ := hr
        rcases ih with ⟨rs, h⟩ | ⟨hn, h⟩
        · exact Or.inl ⟨s :: rs, .sample hs h⟩
        · refine Or.inr ⟨?_, ?_⟩
          · rintro ⟨rs, hr⟩
            cases hr with
            | comment hl _ => exact hc hl
            | sample _ h' => exact hn ⟨_, h'⟩
          · intro d
            rw [List.foldlM_cons, modisLine_record P scale d _ _ hs]
            exact h _
      · have hr' : ∀ s, ¬ IsRecord P l s := fun s hs => hr ⟨s, hs⟩
        refine Or.inr ⟨?_, ?_⟩
        · rintro ⟨rs, hr⟩
          cases hr with
          | comment hl _ => exact hc hl
          | sample hl _ => exact hr' _ hl
        · intro d
          rw [List.foldlM_cons, modisLine_bad P hP scale d _ hc hr']
          rfl

/-- the samples collected for a detector -/
theorem collect_get (scale : α) (rs : List (ModisRecord α)) (n : Int) : ∀ d : Dict String (RawCurve α),
    (rs.foldl (addRecord scale) d).get? (detKey n) =
      if rs.any (fun s => s.det == n) then
        some ⟨((d.get? (detKey n)).getD ⟨[], []⟩).wavelength ++ (rs.filter fun s => s.det == n).map (fun s => s.wvl * scale),
          ((d.get? (detKey n)).getD ⟨[], []⟩).response ++ (rs.filter fun s => s.det == n).map ModisRecord.resp⟩
      else d.get? (detKey n) := by
  induction rs with
  | nil => intro d; rfl
  | cons s rs ih =>
    intro d
    rw [List.foldl_cons, ih]
    by_cases hs : s.det = n
    · subst hs
      simp only [addRecord, get?_set_self, List.any_cons, beq_self_eq_true, Bool.true_or, if_true,
        List.filter_cons_of_pos, Option.getD_some, List.append_assoc, List.map_cons, List.singleton_append]
      split
      · rfl
      · next h =>
        have : rs.filter (fun x => x.det == s.det) = [] := by
          rw [List.filter_eq_nil_iff]
          intro x hx hx'
          exact h (List.any_eq_true.2 ⟨x, hx, hx'⟩)
        rw [this]; rfl
    · have hk : detKey n ≠ detKey s.det := fun h => hs (detKey_inj h).symm
      have hb : (s.det == n) = false := by simpa using hs
      simp only [addRecord, get?_set_ne _ _ hk, List.any_cons, hb, Bool.false_or]
      rw [List.filter_cons_of_neg (by simpa using hs)]

theorem collect_keys (scale : α) (rs : List (ModisRecord α)) : ∀ (d : Dict String (RawCurve α)) (k : String),
    k ∈ (rs.foldl (addRecord scale) d).keys → k ∈ d.keys ∨ ∃ s ∈ rs, k = detKey s.det := by
  induction rs with
  | nil => intro d k h; exact Or.inl h
  | cons s rs ih =>
    intro d k h
    rw [List.foldl_cons] at h
    rcases ih _ k h with h | ⟨t, ht, rfl⟩
    · by_cases hk : k = detKey s.det
      · exact Or.inr ⟨s, by simp, hk⟩
      · left
        by_contra hn
        have := get?_eq_none_iff.2 hn
        rw [← get?_set_ne d _ hk] at this
        exact get?_eq_none_iff.1 this h
    · exact Or.inr ⟨t, by simp [ht], rfl⟩

omit [PyNum α] in
theorem select_filter {β γ : Type} (l : List β) (p : β → Bool) (f : β → γ) :
    select (l.map p) (l.map f) = (l.filter p).map f := by
  induction l with
  | nil => rfl
  | cons a l ih =>
    cases h : p a with
    | true => simp [select, h, ih]
    | false => simp [select, h, ih]

/-! ### Loops over dictionaries -/

omit [PyNum α] in
/-- a function on every value of a dictionary, in order -/
theorem mapMVals_ok {κ β γ : Type} [DecidableEq κ] (f : β → Py γ) (d : Dict κ β) (h : ∀ p ∈ d, ∃ u, f p.2 = .ok u) :
    ∃ out : Dict κ γ, (d.mapM fun p => do return (p.1, ← f p.2)) = .ok out ∧ out.keys = d.keys ∧
      ∀ k v, d.get? k = some v → ∃ u, f v = .ok u ∧ out.get? k = some u := by
  induction d with
  | nil => exact ⟨[], rfl, rfl, fun k v h => by cases h⟩
  | cons p d ih =>
    obtain ⟨k, v⟩ := p
    obtain ⟨u, hu⟩ := h (k, v) (by simp)
    obtain ⟨out, h1, h2, h3⟩ := ih (fun q hq => h q (by simp [hq]))
    refine ⟨(k, u) :: out, ?_, ?_, ?_⟩
    · rw [List.mapM_cons, hu, h1]; rfl
    · simp only [Dict.keys, List.map_cons] at h2 ⊢
      rw [h2]
    · intro k' v' hv
      by_cases hk : k = k'
      · subst hk
        have : v = v' := by simpa [Dict.get?] using hv
        subst this
        exact ⟨u, hu, by simp [Dict.get?]⟩
      · have hv' : Dict.get? d k' = some v' := by simpa [Dict.get?, hk] using hv
        obtain ⟨u', a, b⟩ := h3 k' v' hv'
        exact ⟨u', a, by simpa [Dict.get?, hk] using b⟩

omit [PyNum α] in
theorem mem_of_get {κ β : Type} [DecidableEq κ] {d : Dict κ β} (hd : d.WF) (P : β → Prop)
    (h : ∀ k v, d.get? k = some v → P v) : ∀ p ∈ d, P p.2 := by
  intro p hp
  exact h p.1 p.2 (get?_of_mem hd hp)

/-! ### MODIS bands -/

theorem toString_inj {i j : Nat} (h : toString i = toString j) : i = j := Nat.repr_inj.1 h

theorem modisFilename_eq (platform path : String) (i : Nat) (hi : i < 36) :
    modisFilename platform path (i + 1) = OsPath.join path (modisFileOf platform (i + 1)) := by
  unfold modisFilename modisFileOf twoDigits
  have hm : (i + 1 ∈ [5, 6, 7] ++ (List.range 17).map (· + 20)) ↔ (i + 1 = 5 ∨ i + 1 = 6 ∨ i + 1 = 7 ∨ 20 ≤ i + 1) := by
    simp only [List.mem_append, List.mem_cons, List.not_mem_nil, or_false, List.mem_map, List.mem_range]
    constructor
    · rintro (h | ⟨a, _, h⟩)
      · omega
      · omega
    · intro h
      by_cases h20 : 20 ≤ i + 1
      · exact Or.inr ⟨i + 1 - 20, by omega, by omega⟩
      · left; omega
  by_cases hp : platform = "EOS-Terra"
  · rw [if_pos hp, if_pos hp]
  · rw [if_neg hp, if_neg hp]
    by_cases hm' : i + 1 ∈ [5, 6, 7] ++ (List.range 17).map (· + 20)
    · rw [if_pos hm', if_pos (hm.1 hm')]
    · rw [if_neg hm', if_neg (fun h => hm' (hm.2 h))]

theorem modisFilenames_get (platform path : String) (i : Nat) (hi : i < 36) :
    (modisFilenames platform path).getItem (toString (i + 1)) = .ok (OsPath.join path (modisFileOf platform (i + 1))) := by
  rw [getItem_ok_iff, ← modisFilename_eq platform path i hi]
  refine get?_of_mem ?_ ?_
  · unfold Dict.WF modisFilenames
    rw [List.map_map]
    exact List.nodup_range.map (fun a b h => by have := toString_inj h; omega)
  · exact List.mem_map.2 ⟨i, by simpa using hi, rfl⟩

theorem shortwave_iff (i : Nat) : toString (i + 1) ∈ SHORTWAVE_BANDS ↔ i + 1 ≤ 19 ∨ i + 1 = 26 := by
  unfold SHORTWAVE_BANDS
  simp only [List.mem_append, List.mem_map, List.mem_range, List.mem_singleton]
  constructor
  · rintro (⟨a, ha, h⟩ | h)
    · have := toString_inj h; omega
    · have : toString (i + 1) = toString 26 := h
      have := toString_inj this; omega
  · rintro (h | h)
    · exact Or.inl ⟨i, by omega, rfl⟩
    · right; rw [h]; rfl

theorem modisScale_eq (platform : String) (i : Nat) :
    (if toString (i + 1) ∈ SHORTWAVE_BANDS ∨ platform = "EOS-Aqua" then (0.001 : α) else 1.0) = modisUnit platform (i + 1) := by
  unfold modisUnit
  by_cases h : toString (i + 1) ∈ SHORTWAVE_BANDS ∨ platform = "EOS-Aqua"
  · rw [if_pos h, if_pos (by rw [shortwave_iff] at h; tauto)]
  · rw [if_neg h, if_neg (by rw [shortwave_iff] at h; tauto)]

theorem wvlIsConstant_iff (wvl : List α) (others : List (RawCurve α)) :
    wvlIsConstant wvl others = true ↔ ∀ c ∈ others, CloseGrids wvl c.wavelength := by
  have key : ∀ v w : List α, ((List.zipWith isClose v w).all id = true ↔ ∀ p ∈ v.zip w, isClose p.1 p.2 = true) := by
    intro v
    induction v with
    | nil => intro w; simp
    | cons a v ih =>
      intro w
      cases w with
      | nil => simp
      | cons b w => simp [ih w]
  unfold wvlIsConstant
  rw [List.all_eq_true]
  refine forall₂_congr fun c _ => ?_
  rw [Bool.and_eq_true, beq_iff_eq, key]
  unfold CloseGrids isClose isFinite
  refine and_congr_right fun _ => forall₂_congr fun p _ => ?_
  simp

end Verif.Lemmas
