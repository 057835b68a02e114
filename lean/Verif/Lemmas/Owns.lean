import Verif.Lemmas.Conc
/-
Programs that run at the same time, each with a part of the state of its own.
-/
namespace Verif.Lemmas
open Prog

variable {σ κ β γ ι : Type}

/-- `Owns K R I F k P`: as long as all others keep the program's own part of the state (`K`, which is `k` now)
and `I`, its steps keep `I`, are all related by `R`, and it ends with a result and an own part that meet `F`. -/
def Owns (K : σ → κ) (R : σ → σ → Prop) (I : σ → Prop) (F : Py β → κ → Prop) : κ → Prog σ β → Prop
  | k, .done r => F r k
  | k, .step n u => ∀ s, I s → K s = k → I (u s) ∧ R s (u s) ∧ Owns K R I F (K (u s)) (n s)

variable {K : σ → κ} {R : σ → σ → Prop} {I : σ → Prop}

theorem owns_weaken {F G : Py β → κ → Prop} (h : ∀ r k, F r k → G r k) (P : Prog σ β) :
    ∀ k, Owns K R I F k P → Owns K R I G k P := by
  induction P with
  | done r => exact fun k hk => h r k hk
  | step n u ih => exact fun k hk s hs hK => ⟨(hk s hs hK).1, (hk s hs hK).2.1, ih s _ (hk s hs hK).2.2⟩

theorem owns_rel {F : Py β → κ → Prop} {R' : σ → σ → Prop} (h : ∀ s s', R s s' → R' s s') (P : Prog σ β) :
    ∀ k, Owns K R I F k P → Owns K R' I F k P := by
  induction P with
  | done r => exact fun k hk => hk
  | step n u ih => exact fun k hk s hs hK => ⟨(hk s hs hK).1, h _ _ (hk s hs hK).2.1, ih s _ (hk s hs hK).2.2⟩

theorem owns_bind {F : Py β → κ → Prop} {G : Py γ → κ → Prop} {f : β → Prog σ γ}
    (hok : ∀ a k, F (.ok a) k → Owns K R I G k (f a)) (herr : ∀ e k, F (.error e) k → G (.error e) k) (P : Prog σ β) :
    ∀ k, Owns K R I F k P → Owns K R I G k (P.bind f) := by
  induction P with
  | done r =>
    cases r with
    | ok a => exact fun k hk => hok a k hk
    | error e => exact fun k hk => herr e k hk
  | step n u ih => exact fun k hk s hs hK => ⟨(hk s hs hK).1, (hk s hs hK).2.1, ih s _ (hk s hs hK).2.2⟩

/-- a first part that certainly ends well and leaves a part known to the last detail -/
theorem owns_then {G : Py γ → κ → Prop} {f : β → Prog σ γ} {P : Prog σ β} {k k' : κ} {a : β}
    (h1 : Owns K R I (fun r k => r = .ok a ∧ k = k') k P) (h2 : Owns K R I G k' (f a)) : Owns K R I G k (P.bind f) :=
  owns_bind (fun b _ hb => by obtain ⟨h, rfl⟩ := hb; cases h; exact h2)
    (fun e _ he => by cases he.1) P k h1

/-- Under every schedule: each of the programs keeps what it owns, and what all their steps keep is kept. -/
theorem owns_exec [DecidableEq ι] (K : ι → σ → κ) (R : ι → σ → σ → Prop) (F : ι → Py β → κ → Prop)
    (hR : ∀ i j s s', i ≠ j → R i s s' → K j s' = K j s) (P : ι → Prog σ β) (s : σ) (hs : I s)
    (hP : ∀ i, Owns (K i) (R i) I (F i) (K i s) (P i)) (T : σ → Prop) (hT : T s) (hRT : ∀ i a b, R i a b → T a → T b)
    (schedule : List ι) :
    (∀ i r, ((Prog.exec (P, s) schedule).1 i).result? = some r → F i r (K i (Prog.exec (P, s) schedule).2)) ∧
    T (Prog.exec (P, s) schedule).2 := by
  have key := exec_invariant (fun c : (ι → Prog σ β) × σ =>
    I c.2 ∧ T c.2 ∧ ∀ i, Owns (K i) (R i) I (F i) (K i c.2) (c.1 i)) ?_ schedule (P, s) ⟨hs, hT, hP⟩
  · refine ⟨fun i r hr => ?_, key.2.1⟩
    have := key.2.2 i
    cases h : (Prog.exec (P, s) schedule).1 i with
    | done r' => rw [h] at hr this; cases hr; exact this
    | step n u => rw [h] at hr; cases hr
  rintro ⟨Q, t⟩ j ⟨h1, h2, h3⟩
  dsimp only at h1 h2 h3
  cases h : Q j with
  | done r =>
    have : Prog.move j (Q, t) = (Q, t) := by simp [Prog.move, h]
    rw [this]
    exact ⟨h1, h2, h3⟩
  | step n u =>
    have : Prog.move j (Q, t) = (Function.update Q j (n t), u t) := by simp [Prog.move, h]
    rw [this]
    have hj := h3 j
    rw [h] at hj
    obtain ⟨a, b, c⟩ := hj t h1 rfl
    refine ⟨a, hRT j _ _ b h2, fun i => ?_⟩
    dsimp only
    by_cases hi : i = j
    · subst hi
      rw [Function.update_self]
      exact c
    · rw [Function.update_of_ne hi, hR j i _ _ (Ne.symm hi) b]
      exact h3 i

/-- alone -/
theorem owns_run {F : Py β → κ → Prop} (P : Prog σ β) : ∀ s, I s → Owns K R I F (K s) P →
    F (P.run s).1 (K (P.run s).2) := by
  induction P with
  | done r => exact fun s _ h => h
  | step n u ih => exact fun s hs h => ih s (u s) (h s hs rfl).1 (h s hs rfl).2.2

end Verif.Lemmas
