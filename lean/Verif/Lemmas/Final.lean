import Verif.Lemmas.Trace

/-!
# How a program ends, for concrete cases
-/

set_option autoImplicit false

namespace Detox

/-- How the program ends after exactly these calls, given these answers. -/
def Prog.final {α : Type} : Prog α → List Event → Option (Outcome α)
  | .ret a, [] => some (.ret a)
  | .exit n, [] => some (.exit n)
  | .ub u, [] => some (.ub u)
  | .lstat p k, .lstat p' r :: tr => if p = p' then final (k r) tr else none
  | .rename o n k, .rename o' n' r :: tr => if o = o' ∧ n = n' then final (k r) tr else none
  | .opendir p k, .opendir p' r :: tr => if p = p' then final (k r) tr else none
  | .readdir h k, .readdir h' r :: tr => if h = h' then final (k r) tr else none
  | .closedir h k, .closedir h' :: tr => if h = h' then final k tr else none
  | .slurp p k, .slurp p' r :: tr => if p = p' then final (k r) tr else none
  | .out s k, .out s' :: tr => if s = s' then final k tr else none
  | .err s k, .err s' :: tr => if s = s' then final k tr else none
  | _, _ => none

theorem Prog.final_sound {α : Type} : ∀ (tr : List Event) (p : Prog α) (oc : Outcome α), p.final tr = some oc → Trace p tr oc
  | [], p, a, h => by
    cases p <;> simp only [Prog.final] at h <;> first | (exfalso; exact Option.noConfusion rfl (heq_of_eq h)) | skip
    · cases h; exact .ret _
    · cases h; exact .exit _
    · cases h; exact .ub _
  | e :: tr, p, a, h => by
    cases p <;> cases e <;> simp only [Prog.final] at h <;> first | (cases h; done) | skip
    all_goals split at h <;> first | (cases h; done) | skip
    case lstat.lstat.isTrue p k p' r he => subst he; exact .lstat _ _ _ _ _ (final_sound tr _ _ h)
    case rename.rename.isTrue o n k o' n' r he => obtain ⟨rfl, rfl⟩ := he; exact .rename _ _ _ _ _ _ (final_sound tr _ _ h)
    case opendir.opendir.isTrue p k p' r he => subst he; exact .opendir _ _ _ _ _ (final_sound tr _ _ h)
    case readdir.readdir.isTrue p k p' r he => subst he; exact .readdir _ _ _ _ _ (final_sound tr _ _ h)
    case closedir.closedir.isTrue p k p' he => subst he; exact .closedir _ _ _ _ (final_sound tr _ _ h)
    case slurp.slurp.isTrue p k p' r he => subst he; exact .slurp _ _ _ _ _ (final_sound tr _ _ h)
    case out.out.isTrue p k p' he => subst he; exact .out _ _ _ _ (final_sound tr _ _ h)
    case err.err.isTrue p k p' he => subst he; exact .err _ _ _ _ (final_sound tr _ _ h)

end Detox
