import Verif.Lemmas.Dict
import Verif.Lemmas.ReaderOps
import Verif.Lemmas.NirNew
import Verif.Model.Config
/-
Recursive dictionary update, and running `get_config`.
-/
namespace Verif.Lemmas
open Verif Verif.Model

theorem get?_set (d : List (String × Conf)) (k k' : String) (v : Conf) :
    Dict.get? (Dict.set d k v) k' = if k' = k then some v else Dict.get? d k' := by
  by_cases h : k' = k
  · subst h; rw [if_pos rfl]; exact get?_set_self d k' v
  · rw [if_neg h]; exact get?_set_ne d v h

theorem update_nil (d : Conf) : recursiveDictUpdate d [] = .ok d := by
  unfold recursiveDictUpdate; rfl

theorem update_leaf_cons (x : Leaf) (e : String × Conf) (u : List (String × Conf)) :
    ∃ err, recursiveDictUpdate (.leaf x) (e :: u) = .error err := by
  obtain ⟨k, c⟩ := e
  cases c with
  | leaf v => exact ⟨_, by unfold recursiveDictUpdate; rfl⟩
  | map v => exact ⟨_, by unfold recursiveDictUpdate; rfl⟩

theorem update_map_leaf (dd u : List (String × Conf)) (k : String) (v : Leaf) :
    recursiveDictUpdate (.map dd) ((k, .leaf v) :: u) = recursiveDictUpdate (.map (Dict.set dd k (.leaf v))) u := by
  rw [recursiveDictUpdate]

theorem update_map_map (dd u v : List (String × Conf)) (k : String) :
    recursiveDictUpdate (.map dd) ((k, .map v) :: u) =
      (recursiveDictUpdate ((Dict.get? dd k).getD (.map [])) v).bind fun r =>
        recursiveDictUpdate (.map (Dict.set dd k r)) u := by
  rw [recursiveDictUpdate]; rfl

/-- one level of an update -/
theorem update_level : ∀ (u dd : List (String × Conf)) (r : Conf), Dict.WF u →
    recursiveDictUpdate (.map dd) u = .ok r →
    ∃ rr, r = .map rr ∧ ∀ k,
      (Dict.get? u k = none → Dict.get? rr k = Dict.get? dd k) ∧
      (∀ v, Dict.get? u k = some (.leaf v) → Dict.get? rr k = some (.leaf v)) ∧
      (∀ v, Dict.get? u k = some (.map v) → ∃ x,
        recursiveDictUpdate ((Dict.get? dd k).getD (.map [])) v = .ok x ∧ Dict.get? rr k = some x)
  | [], dd, r, _, h => by
    rw [update_nil] at h
    cases h
    exact ⟨dd, rfl, fun k => ⟨fun _ => rfl, (fun _ h => by cases h), (fun _ h => by cases h)⟩⟩
  | (k₀, c) :: u, dd, r, hu, h => by
    have hu' : Dict.WF u := (List.nodup_cons.1 hu).2
    have hk₀ : Dict.get? u k₀ = none := by
      rw [get?_eq_none_iff]; exact (List.nodup_cons.1 hu).1
    have key : ∀ k, Dict.get? ((k₀, c) :: u) k = if k₀ = k then some c else Dict.get? u k := fun k => rfl
    cases c with
    | leaf v =>
      rw [update_map_leaf] at h
      obtain ⟨rr, hr, hlev⟩ := update_level u _ r hu' h
      refine ⟨rr, hr, fun k => ?_⟩
      obtain ⟨l1, l2, l3⟩ := hlev k
      rw [key]
      by_cases hk : k₀ = k
      · subst hk
        rw [if_pos rfl]
        refine ⟨(fun h => by cases h), ?_, (fun _ h => by cases h)⟩
        intro v' hv'
        cases hv'
        rw [l1 hk₀, get?_set, if_pos rfl]
      · rw [if_neg hk]
        refine ⟨fun hn => by rw [l1 hn, get?_set, if_neg (Ne.symm hk)], l2, ?_⟩
        intro v' hv'
        obtain ⟨x, h1, h2⟩ := l3 v' hv'
        rw [get?_set, if_neg (Ne.symm hk)] at h1
        exact ⟨x, h1, h2⟩
    | map v =>
      rw [update_map_map] at h
      cases hx : recursiveDictUpdate ((Dict.get? dd k₀).getD (.map [])) v with
      | error e => rw [hx] at h; cases h
      | ok x =>
        rw [hx] at h
        obtain ⟨rr, hr, hlev⟩ := update_level u _ r hu' h
        refine ⟨rr, hr, fun k => ?_⟩
        obtain ⟨l1, l2, l3⟩ := hlev k
        rw [key]
        by_cases hk : k₀ = k
        · subst hk
          rw [if_pos rfl]
          refine ⟨(fun h => by cases h), (fun _ h => by cases h), ?_⟩
          intro v' hv'
          cases hv'
          exact ⟨x, hx, by rw [l1 hk₀, get?_set, if_pos rfl]⟩
        · rw [if_neg hk]
          refine ⟨fun hn => by rw [l1 hn, get?_set, if_neg (Ne.symm hk)], l2, ?_⟩
          intro v' hv'
          obtain ⟨y, h1, h2⟩ := l3 v' hv'
          rw [get?_set, if_neg (Ne.symm hk)] at h1
          exact ⟨y, h1, h2⟩

theorem set_same : ∀ (d : List (String × Conf)) (k : String) (v : Conf), Dict.get? d k = some v → Dict.set d k v = d
  | (k', v') :: d, k, v, h => by
    unfold Dict.get? at h
    unfold Dict.set
    by_cases hk : k' = k
    · rw [if_pos hk] at h ⊢
      cases h
      rw [hk]
    · rw [if_neg hk] at h ⊢
      rw [set_same d k v h]

/-- nothing happens when everything is there already -/
theorem update_fixed : ∀ (u rr : List (String × Conf)),
    (∀ k v, (k, Conf.leaf v) ∈ u → Dict.get? rr k = some (.leaf v)) →
    (∀ k v, (k, Conf.map v) ∈ u → ∃ x, Dict.get? rr k = some x ∧ recursiveDictUpdate x v = .ok x) →
    recursiveDictUpdate (.map rr) u = .ok (.map rr)
  | [], rr, _, _ => update_nil _
  | (k, .leaf v) :: u, rr, h1, h2 => by
    rw [update_map_leaf, set_same _ _ _ (h1 k v (List.mem_cons_self ..))]
    exact update_fixed u rr (fun k v h => h1 k v (List.mem_cons_of_mem _ h)) fun k v h => h2 k v (List.mem_cons_of_mem _ h)
  | (k, .map v) :: u, rr, h1, h2 => by
    obtain ⟨x, e1, e2⟩ := h2 k v (List.mem_cons_self ..)
    rw [update_map_map, e1, Option.getD_some, e2]
    show recursiveDictUpdate (.map (Dict.set rr k x)) u = _
    rw [set_same _ _ _ e1]
    exact update_fixed u rr (fun k v h => h1 k v (List.mem_cons_of_mem _ h)) fun k v h => h2 k v (List.mem_cons_of_mem _ h)

end Verif.Lemmas
