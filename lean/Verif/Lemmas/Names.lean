import Verif.Model.Utils
import Verif.Spec.Names
import Verif.Lemmas.Dict
import Mathlib.Data.List.Basic
import Mathlib.Tactic.Common
/-
Lemmas about lower-casing and stripping of instrument names.
-/
namespace Verif.Lemmas
open Model Spec

theorem toNat_ofNat_small {n : Nat} (h : n < 0xd800) : (Char.ofNat n).toNat = n := by
  have hv : n.isValidChar := Or.inl h
  unfold Char.ofNat
  rw [dif_pos hv]
  rfl

theorem lowerChar_eq (c : Char) : Str.lowerChar c = c.toLower := by
  unfold Str.lowerChar Char.toLower
  by_cases h : 'A'.toNat ≤ c.toNat ∧ c.toNat ≤ 'Z'.toNat
  · have h' : c.val ≥ 'A'.val ∧ c.val ≤ 'Z'.val := by
      constructor
      · exact UInt32.le_iff_toNat_le.2 h.1
      · exact UInt32.le_iff_toNat_le.2 h.2
    rw [if_pos h, dif_pos h']
    apply Char.ext
    have h2 : c.toNat + 32 < 0xd800 := by
      have : ('Z' : Char).toNat = 90 := by decide
      omega
    apply UInt32.toNat.inj
    have hv : (Char.ofNat (c.toNat + 32)).toNat = c.toNat + 32 := by
      exact toNat_ofNat_small h2
    show (Char.ofNat (c.toNat + 32)).toNat = (c.val + 32).toNat
    rw [hv, UInt32.toNat_add]
    show c.val.toNat + 32 = (c.val.toNat + 32) % 2 ^ 32
    have h3 : c.val.toNat + 32 < 0xd800 := h2
    omega
  · have h' : ¬ (c.val ≥ 'A'.val ∧ c.val ≤ 'Z'.val) := by
      intro hc
      exact h ⟨UInt32.le_iff_toNat_le.1 hc.1, UInt32.le_iff_toNat_le.1 hc.2⟩
    rw [if_neg h, dif_neg h']

theorem lowerChar_not_upper (c : Char) :
    ¬ ('A'.toNat ≤ (Str.lowerChar c).toNat ∧ (Str.lowerChar c).toNat ≤ 'Z'.toNat) := by
  have hA : ('A' : Char).toNat = 65 := by decide
  have hZ : ('Z' : Char).toNat = 90 := by decide
  unfold Str.lowerChar
  split
  · rename_i h
    have := toNat_ofNat_small (n := c.toNat + 32) (by omega)
    omega
  · assumption

theorem lowerChar_idem (c : Char) : Str.lowerChar (Str.lowerChar c) = Str.lowerChar c := by
  have h := lowerChar_not_upper c
  generalize Str.lowerChar c = d at h
  unfold Str.lowerChar
  rw [if_neg h]

theorem lower_lower (s : String) : Str.lower (Str.lower s) = Str.lower s := by
  unfold Str.lower
  congr 1
  simp [Function.comp_def, lowerChar_idem]

theorem stripInstrument_eq (s : String) : stripInstrument s = canonical s := by
  unfold stripInstrument canonical Str.removeChar Str.lower
  refine congrArg String.ofList ?_
  simp only [String.toList_ofList, List.filter_filter]
  rw [show Str.lowerChar = Char.toLower from funext lowerChar_eq]
  apply List.filter_congr
  intro c _
  by_cases h1 : c = '/' <;> by_cases h2 : c = '-' <;> simp [h1, h2]

theorem canonical_isCanonical (s : String) : IsCanonical (canonical s) := by
  intro c hc
  unfold canonical at hc
  simp only [String.toList_ofList, List.mem_filter, List.mem_map] at hc
  obtain ⟨⟨d, _, rfl⟩, h⟩ := hc
  simp only [Bool.and_eq_true, bne_iff_ne, ne_eq] at h
  refine ⟨h.1, h.2, ?_⟩
  rw [← lowerChar_eq]
  exact lowerChar_not_upper d

theorem canonical_of_isCanonical {s : String} (h : IsCanonical s) : canonical s = s := by
  unfold canonical
  have h1 : s.toList.map Char.toLower = s.toList := by
    conv_rhs => rw [← List.map_id s.toList]
    apply List.map_congr_left
    intro c hc
    rw [← lowerChar_eq]
    unfold Str.lowerChar
    rw [if_neg (h c hc).2.2]; rfl
  rw [h1, List.filter_eq_self.2 ?_, String.ofList_toList]
  intro c hc
  obtain ⟨a, b, _⟩ := h c hc
  simp [a, b]

theorem canonical_lower (s : String) : canonical (Str.lower s) = canonical s := by
  rw [← stripInstrument_eq, ← stripInstrument_eq]
  unfold stripInstrument
  rw [lower_lower]

/-- names accepted as identical have the same canonical form -/
theorem canonical_of_identical {a b : String} (h : areInstrumentsIdentical a b = true) :
    canonical a = canonical b := by
  unfold areInstrumentsIdentical at h
  split at h
  · rename_i he; rw [he]
  · split at h
    · rename_i _ he
      have hm := get?_eq_some_mem he.symm
      simp only [INSTRUMENT_TRANSLATION_DASH2SLASH, List.mem_cons, Prod.mk.injEq, List.not_mem_nil, or_false] at hm
      rcases hm with ⟨rfl, rfl⟩ | ⟨rfl, rfl⟩ | ⟨rfl, rfl⟩ <;> decide
    · simp at h

end Verif.Lemmas
