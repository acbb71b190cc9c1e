import Verif.Props.Denote
import Verif.Props.Default
import Verif.Spec.Settled

/-!
# Filters that work character by character
-/

set_option autoImplicit false

namespace Detox
open Spec

section
variable {P : Platform} {locale : Bytes} {datadir : Option Bytes} {files : Bytes → Option Bytes}

theorem bytewise_one {f : Filter} (hf : f.cleaner = .safe ∨ f.cleaner = .iso8859_1 ∨ f.cleaner = .lower) {s v : Bytes}
    (h : FilterSays P locale datadir files f s v) : ∃ g : Byte → Bytes, ∀ t, FilterSays P locale datadir files f t (t.flatMap g) := by
  cases h with
  | lower hc =>
    refine ⟨fun c => [small c], fun t => ?_⟩
    have : t.flatMap (fun c => [small c]) = t.map small := by
      induction t with
      | nil => rfl
      | cons a t ih => rw [List.flatMap_cons, ih]; rfl
    rw [this]
    exact .lower hc
  | wipeup _ hc => rw [hc] at hf; simp at hf
  | uncgi _ hc => rw [hc] at hf; simp at hf
  | maxLength _ hc => rw [hc] at hf; simp at hf
  | iso8859_1 m hc hm => exact ⟨_, fun t => .iso8859_1 m hc hm⟩
  | safe m hc hm => exact ⟨_, fun t => .safe m hc hm⟩
  | utf8 _ _ hc => rw [hc] at hf; simp at hf

theorem bytewise {fs : List Filter} (hf : ∀ f ∈ fs, f.cleaner = .safe ∨ f.cleaner = .iso8859_1 ∨ f.cleaner = .lower) {s v : Bytes}
    (h : FiltersSay P locale datadir files fs s v) : ∃ g : Byte → Bytes, ∀ t, FiltersSay P locale datadir files fs t (t.flatMap g) := by
  induction h with
  | nil s =>
    refine ⟨fun c => [c], fun t => ?_⟩
    have : t.flatMap (fun c => [c]) = t := List.flatMap_singleton' t
    rw [this]
    exact .nil t
  | cons f fs s mid out h1 h2 ih =>
    obtain ⟨g, hg⟩ := bytewise_one (hf f (by simp)) h1
    obtain ⟨g', hg'⟩ := ih fun f h => hf f (by simp [h])
    refine ⟨fun c => (g c).flatMap g', fun t => ?_⟩
    rw [← List.flatMap_assoc]
    exact .cons _ _ _ _ _ (hg t) (hg' _)

theorem flatMap_self_of {g : Byte → Bytes} : ∀ {v : Bytes}, (∀ x ∈ v, g x = [x]) → v.flatMap g = v
  | [], _ => rfl
  | a :: v, h => by rw [List.flatMap_cons, h a (by simp), flatMap_self_of fun x hx => h x (by simp [hx])]; rfl

theorem filtersSay_append {fs gs : List Filter} {s mid out : Bytes} (h : FiltersSay P locale datadir files fs s mid) (h' : FiltersSay P locale datadir files gs mid out) :
    FiltersSay P locale datadir files (fs ++ gs) s out := by
  induction h with
  | nil => exact h'
  | cons f fs s m o h1 _ ih => exact .cons _ _ _ _ _ h1 (ih h')

theorem filtersSay_one {f : Filter} {s out : Bytes} : FiltersSay P locale datadir files [f] s out ↔ FilterSays P locale datadir files f s out := by
  constructor
  · intro h
    cases h with
    | cons _ _ _ _ _ h1 h2 => cases h2; exact h1
  · intro h
    exact .cons _ _ _ _ _ h (.nil _)

end

end Detox
