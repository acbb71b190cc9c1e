import Verif.Spec.Concurrent
import Verif.Spec.Tree

/-!
# Several processes at the same time, with open directories
-/

set_option autoImplicit false

namespace Detox.Spec

/-- What there is to see for a process after another has made a call: the names are others, and names that are no longer in a directory need not be given. -/
def World.sees (fs : FS) (w : World) : World := { w with fs := fs, streams := fun k => (w.streams k).map (Stream.after fs) }

/-- Processes working on one file system: each with its own open directories, and with the calls it has still to make. Any of them may be the next to make
its call. In the end the worlds are those given. -/
inductive Together : List (World × List Event) → List World → Prop
  | done (c : List (World × List Event)) : (∀ x ∈ c, x.2 = []) → Together c (c.map Prod.fst)
  | next (l r : List (World × List Event)) (w w' : World) (e : Event) (t : List Event) (ws : List World) : World.Step w e w' →
      Together (l.map (fun x => (x.1.sees w'.fs, x.2)) ++ (w', t) :: r.map (fun x => (x.1.sees w'.fs, x.2))) ws →
      Together (l ++ (w, e :: t) :: r) ws

/-- The directories among the arguments, and all that is below them. -/
inductive FS.Inside (fs : FS) (args : List Bytes) : Ino → Prop
  | arg (f : Bytes) (d : Ino) : f ∈ args → fs.lookup f = some d → fs.kind d = .dir → FS.Inside fs args d
  | sub (e : Entry) : e ∈ fs.entries → FS.Inside fs args e.dir → fs.kind e.ino = .dir → FS.Inside fs args e.ino

/-- The trees of the one have nothing to do with those of the other: there is no directory that is in both; an argument, or the name it should have, is not in
a directory of the other; and no argument of the one has, or should have, the same place as an argument of the other. -/
structure TreesApart (fs : FS) (a b : Renamer) : Prop where
  files : FarApart fs a b
  inside : ∀ d, fs.Inside a.args d → ¬ fs.Inside b.args d
  left : ∀ f ∈ a.args, ∀ p x, Concerns a.R f p → fs.slot p = some x → ¬ fs.Inside b.args x.1
  right : ∀ f ∈ b.args, ∀ p x, Concerns b.R f p → fs.slot p = some x → ¬ fs.Inside a.args x.1

/-- The entry is in a directory among the arguments, or below one, or is an argument itself. -/
def Renamer.Has (T : Renamer) (fs : FS) (e : Entry) : Prop := fs.Inside T.args e.dir ∨ ∃ f ∈ T.args, fs.IsAt f e

end Detox.Spec
