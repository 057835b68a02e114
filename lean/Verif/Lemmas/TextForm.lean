import Verif.Model.Config
/-
A concrete text form of configurations that can be read back, to show that the assumptions made
of yaml can be met.  Not a model of yaml.
-/
namespace Verif.Lemmas
open Verif Verif.Model

/-- a string: every character marked, then a full stop -/
def putStr (cs : List Char) : List Char := cs.flatMap (fun c => ['x', c]) ++ ['.']

/-- read a string -/
def takeStr : List Char → Option (List Char × List Char)
  | '.' :: r => some ([], r)
  | 'x' :: c :: r => match takeStr r with
    | some (cs, r) => some (c :: cs, r)
    | none => none
  | _ => none

theorem takeStr_putStr (cs r : List Char) : takeStr (putStr cs ++ r) = some (cs, r) := by
  induction cs with
  | nil => rfl
  | cons c cs ih =>
    have : putStr (c :: cs) ++ r = 'x' :: c :: (putStr cs ++ r) := by simp [putStr]
    rw [this, takeStr, ih]

/-- a truth value -/
def putBool (b : Bool) : Char := if b then 't' else 'f'

mutual
/-- write a value -/
def putConf : Conf → List Char
  | .leaf (.str s) => 's' :: putStr s.toList
  | .leaf (.bool b) => ['b', putBool b]
  | .leaf (.other n t) => 'o' :: putBool t :: putStr n.toList
  | .map d => 'm' :: putItems d
/-- write the items of a mapping -/
def putItems : List (String × Conf) → List Char
  | [] => ['e']
  | (k, c) :: d => 'k' :: (putStr k.toList ++ (putConf c ++ putItems d))
end

mutual
/-- read a value, with at most `n` levels of calls -/
def takeConf : Nat → List Char → Option (Conf × List Char)
  | 0, _ => none
  | _ + 1, 's' :: r => match takeStr r with
    | some (cs, r) => some (.leaf (.str (String.ofList cs)), r)
    | none => none
  | _ + 1, 'b' :: c :: r => some (.leaf (.bool (c = 't')), r)
  | _ + 1, 'o' :: c :: r => match takeStr r with
    | some (cs, r) => some (.leaf (.other (String.ofList cs) (c = 't')), r)
    | none => none
  | n + 1, 'm' :: r => match takeItems n r with
    | some (d, r) => some (.map d, r)
    | none => none
  | _, _ => none
/-- read the items of a mapping -/
def takeItems : Nat → List Char → Option (List (String × Conf) × List Char)
  | 0, _ => none
  | _ + 1, 'e' :: r => some ([], r)
  | n + 1, 'k' :: r => match takeStr r with
    | some (k, r) => match takeConf n r with
      | some (c, r) => match takeItems n r with
        | some (d, r) => some ((String.ofList k, c) :: d, r)
        | none => none
      | none => none
    | none => none
  | _, _ => none
end

theorem putBool_read (b : Bool) : decide (putBool b = 't') = b := by cases b <;> decide

mutual
theorem takeConf_put : ∀ (c : Conf) (n : Nat), (putConf c).length ≤ n → ∀ r, takeConf n (putConf c ++ r) = some (c, r)
  | _, 0, hn, _ => by
      rename_i c _
      cases c with
      | leaf v => cases v <;> simp [putConf] at hn
      | map d => simp [putConf] at hn
  | .leaf (.str s), n + 1, _, r => by
      rw [putConf, List.cons_append, takeConf, takeStr_putStr]
      simp
  | .leaf (.bool b), n + 1, _, r => by
      rw [putConf, List.cons_append, List.cons_append, List.nil_append, takeConf, putBool_read]
  | .leaf (.other m t), n + 1, _, r => by
      rw [putConf, List.cons_append, List.cons_append, takeConf, takeStr_putStr, putBool_read]
      simp
  | .map d, n + 1, hn, r => by
      rw [putConf, List.length_cons] at hn
      rw [putConf, List.cons_append, takeConf, takeItems_put d n (by omega)]
theorem takeItems_put : ∀ (d : List (String × Conf)) (n : Nat), (putItems d).length ≤ n →
    ∀ r, takeItems n (putItems d ++ r) = some (d, r)
  | d, 0, hn, _ => by
      rcases d with _ | ⟨⟨k, c⟩, d⟩ <;> simp [putItems] at hn
  | [], n + 1, _, r => by
      rw [putItems, List.cons_append, List.nil_append, takeItems]
  | (k, c) :: d, n + 1, hn, r => by
      rw [putItems, List.length_cons, List.length_append, List.length_append] at hn
      rw [putItems, List.cons_append, takeItems, List.append_assoc, takeStr_putStr]
      dsimp only
      rw [List.append_assoc, takeConf_put c n (by omega)]
      dsimp only
      rw [takeItems_put d n (by omega)]
      simp
end

/-- read a whole text -/
def readConf (t : List Char) : Py Conf :=
  match takeConf t.length t with
  | some (c, []) => .ok c
  | _ => .error .valueError

theorem readConf_put (c : Conf) : readConf (putConf c) = .ok c := by
  have := takeConf_put c _ (Nat.le_refl _) []
  rw [List.append_nil] at this
  unfold readConf
  rw [this]

end Verif.Lemmas
