import Verif.Spec.MakeProc

/-!
Specification of what of the SE files can matter: the calibrated flux, the calibrated weight and the mask.
-/

namespace Pizza

section
variable {A σ S P W ρ : Type}

/-- Two arrays that cannot be read for the same reason, or can and have the same shape. -/
def SameShape (a b : Except Err Arr) : Prop :=
  (∃ e, a = .error e ∧ b = .error e) ∨ ∃ x y, a = .ok x ∧ b = .ok y ∧ x.dims = y.dims

/-- Two entries for an SE image, possibly with other zero points and other files or arrays in memory: the image after
subtraction of the background in units of the zero point 30, the weight in these units and the mask are the same. -/
structure SameFlux (w w' : ProcWorld A σ S P) (e e' : Entry P) : Prop where
  rest : e' = { e with magzp := e'.magzp, image := e'.image, bkg := e'.bkg, bmask := e'.bmask, weight := e'.weight }
  scale : w.zpScale e.magzp ≠ 0
  scale' : w.zpScale e'.magzp ≠ 0
  image : SameShape (w.original e.image) (w'.original e'.image)
  bkg : SameShape (w.original e.bkg) (w'.original e'.bkg)
  weight : SameShape (w.original e.weight) (w'.original e'.weight)
  mask : w'.original e'.bmask = w.original e.bmask
  flux : ∀ a b a' b', w.original e.image = .ok a → w.original e.bkg = .ok b → w'.original e'.image = .ok a' →
    w'.original e'.bkg = .ok b' → ∀ r c, (a'.asNum.px r c - b'.asNum.px r c) * w.zpScale e'.magzp =
      (a.asNum.px r c - b.asNum.px r c) * w.zpScale e.magzp
  weights : ∀ a a', w.original e.weight = .ok a → w'.original e'.weight = .ok a' → ∀ r c,
    a'.asNum.px r c / w.zpScale e'.magzp ^ 2 = a.asNum.px r c / w.zpScale e.magzp ^ 2

/-- Two descriptions of a tile, with other files, whose SE images have the same fluxes. -/
structure SameSky (w w' : ProcWorld A σ S P) (t t' : Tile A S P) : Prop where
  world : w' = { w with files := w'.files, arrays := w'.arrays }
  tile : t' = { t with entries := t'.entries }
  entries : List.Forall₂ (SameFlux w w') t.entries t'.entries

/-- Two calls for such tiles: what is written about them (zero points, paths) can differ. -/
structure SameSkyCall (q q' : MakeP A σ S P W ρ) : Prop where
  sky : SameSky q.world q'.world q.tile q'.tile
  args : q'.args = { q.args with srcs := q'.args.srcs, json := q'.args.json }

/-- Two extensions that are the same, or that both describe the inputs. -/
inductive SameButDescription : Section → Section → Prop
  | same (s) : SameButDescription s s
  | metadata (a b) : SameButDescription (.metadata a) (.metadata b)
  | tileInfo (a b) : SameButDescription (.tileInfo a) (.tileInfo b)
  | imageInfo (a b) : SameButDescription (.imageInfo a) (.imageInfo b)

end
end Pizza
