import Verif.Spec.Process

/-! Vocabulary for C157: the same patch of the sky on another tile, whose pixels are numbered from another place. -/

namespace Pizza

section
variable {A σ S P : Type}

/-- Both fail with the same error, or neither fails and the values are related. -/
inductive BothOk {α β : Type} (R : α → β → Prop) : Except Err α → Except Err β → Prop
  | error (e) : BothOk R (.error e) (.error e)
  | ok (a b) (h : R a b) : BothOk R (.ok a) (.ok b)

/-- An SE image as seen from the other tile: its positions on the coadd are moved by `dx` columns and `dy` rows, and so are the
positions at which SE positions and areas of coadd pixels are looked up.  Nothing else is different. -/
structure MovedSrc (dx dy : ℤ) (s s' : Src) : Prop where
  rest : s' = { s with toCoadd := s'.toCoadd, lookups := s'.lookups }
  toCoadd : BothOk (fun f f' => ∀ x y, f' x y = (f x y).map fun q => (q.1 + dx, q.2 + dy)) s.toCoadd s'.toCoadd
  lookups : BothOk (fun l l' => l'.areaSe = l.areaSe ∧ (∀ u v, l'.toSe (u + dx) (v + dy) = l.toSe u v) ∧
    ∀ u v, l'.areaCoadd (u + dx) (v + dy) = l.areaCoadd u v) s.lookups s'.lookups

/-- The pixel at row `y` and column `x` of the first tile is the pixel at row `y + dy` and column `x + dx` of the second one.  The WCS of
the second tile can also count pixels from another number: its position offset is larger by `o`. -/
structure MovedTile (dx dy o : ℤ) (v v' : SliceEnv A σ S) : Prop where
  rest : v' = { v with fwd := v'.fwd, inv := v'.inv, offset := v'.offset, sources := v'.sources, objects := v'.objects }
  offset : v'.offset = v.offset + o
  fwd : ∀ x y, v'.fwd (x + (dx + o)) (y + (dy + o)) = v.fwd x y
  inv : ∀ ra dec, v'.inv ra dec = ((v.inv ra dec).1 + (dx + o), (v.inv ra dec).2 + (dy + o))
  sources : ∀ ra dec raPsf decPsf, List.Forall₂ (MovedSrc dx dy) (v.sources ra dec raPsf decPsf) (v'.sources ra dec raPsf decPsf)

/-- Two slices for the same patch of the sky. -/
structure MovedRow (dx dy : ℤ) (row row' : ObjRow) : Prop where
  ra : row'.ra = row.ra
  dec : row'.dec = row.dec
  boxSize : row'.boxSize = row.boxSize
  psfBoxSize : row'.psfBoxSize = row.psfBoxSize
  startRow : row'.origStartRow = row.origStartRow + dy
  startCol : row'.origStartCol = row.origStartCol + dx

/-- Interpolation between scattered points does not depend on where the points are, and follows values to which a constant is added. -/
structure Fit.Moves (fit : Fit) : Prop where
  pts : ∀ (p : List (ℚ × ℚ)) vals (a b : ℚ), fit (p.map fun q => (q.1 + a, q.2 + b)) vals =
    (fit p vals).map fun f q => f (q.1 - a, q.2 - b)
  vals : ∀ p vals (a : ℚ), fit p (vals.map (· + a)) = (fit p vals).map fun f q => (f q).map (· + a)

/-- The same SE images and the same configuration on a tile with pixels numbered from another place. -/
structure MovedFiles (dx dy o : ℤ) (w : ProcWorld A σ S P) (t t' : Tile A S P) : Prop where
  rest : t' =
    { t with
      fwd := t'.fwd, inv := t'.inv, offset := t'.offset, shape := t'.shape, key := t'.key, coaddDelta := t'.coaddDelta
      objects := t'.objects }
  offset : t'.offset = t.offset + o
  fwd : ∀ x y, t'.fwd (x + (dx + o)) (y + (dy + o)) = t.fwd x y
  inv : ∀ ra dec, t'.inv ra dec = ((t.inv ra dec).1 + (dx + o), (t.inv ra dec).2 + (dy + o))
  area : BothOk (fun f f' => ∀ u v, f' (u + dx) (v + dy) = f u v)
    (getWcsAreaInterp w.spl t.celestial t.fwd w.cosd t.shape.1 t.shape.2 t.coaddDelta t.offset)
    (getWcsAreaInterp w.spl t'.celestial t'.fwd w.cosd t'.shape.1 t'.shape.2 t'.coaddDelta t'.offset)

end
end Pizza
