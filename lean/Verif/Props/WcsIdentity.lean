import Verif.Model.WcsIdentity
import Verif.Props.Cache
import Verif.Props.CheckInfo
import Mathlib.Data.Rat.Denumerable
import Mathlib.Data.Fintype.Pigeonhole

/-!
Property C103: cached lookups belong to the WCS that asks for them.
-/

namespace Pizza

/-- What is assumed of the text of a number: different numbers have different texts, without commas. -/
structure FmtSpec (fmt : ℚ → PyStr) : Prop where
  inj : ∀ p q, fmt p = fmt q → p = q
  comma : ∀ q, ',' ∉ fmt q

/-- The object was made by the constructor. -/
def AffineWCS.Made (w : AffineWCS) : Prop := ∃ a b c d e f, AffineWCS.mk' a b c d e f = .ok w

theorem sep_split {α : Type} {c : α} {a b r s : List α} (ha : c ∉ a) (hb : c ∉ b)
    (h : a ++ c :: r = b ++ c :: s) : a = b ∧ r = s := by
  have := append_sep_unique ha hb h
  subst this
  simpa using h

theorem made_ext {a b : AffineWCS} (ha : a.Made) (hb : b.Made) (h1 : a.dudx = b.dudx) (h2 : a.dudy = b.dudy)
    (h3 : a.dvdx = b.dvdx) (h4 : a.dvdy = b.dvdy) (h5 : a.x0 = b.x0) (h6 : a.y0 = b.y0) : a = b := by
  obtain ⟨a1, a2, a3, a4, a5, a6, ha⟩ := ha
  obtain ⟨b1, b2, b3, b4, b5, b6, hb⟩ := hb
  unfold AffineWCS.mk' at ha hb
  simp only at ha hb
  split at ha
  · cases ha
  split at hb
  · cases hb
  simp only [Except.ok.injEq] at ha hb
  subst ha hb
  simp_all

/-- **C103** The representation determines the WCS: two `AffineWCS` with the same `repr` are the same
transformation. -/
theorem C103_repr_injective (fmt : ℚ → PyStr) (hf : FmtSpec fmt) (a b : AffineWCS) (ha : a.Made)
    (hb : b.Made) (h : affineRepr fmt a = affineRepr fmt b) : a = b := by
  unfold affineRepr at h
  have e : ∀ s : PyStr, ", ".toList ++ s = ',' :: ' ' :: s := fun _ => rfl
  have t1 : ", dudy=".toList = ',' :: " dudy=".toList := by decide
  have t2 : ", dvdx=".toList = ',' :: " dvdx=".toList := by decide
  have t3 : ", dvdy=".toList = ',' :: " dvdy=".toList := by decide
  have t4 : ", x0=".toList = ',' :: " x0=".toList := by decide
  have t5 : ", y0=".toList = ',' :: " y0=".toList := by decide
  simp only [t1, t2, t3, t4, t5, List.append_assoc, List.cons_append, List.append_cancel_left_eq] at h
  obtain ⟨h1, h⟩ := sep_split (hf.comma _) (hf.comma _) h
  rw [List.append_cancel_left_eq] at h
  obtain ⟨h2, h⟩ := sep_split (hf.comma _) (hf.comma _) h
  rw [List.append_cancel_left_eq] at h
  obtain ⟨h3, h⟩ := sep_split (hf.comma _) (hf.comma _) h
  rw [List.append_cancel_left_eq] at h
  obtain ⟨h4, h⟩ := sep_split (hf.comma _) (hf.comma _) h
  rw [List.append_cancel_left_eq] at h
  obtain ⟨h5, h⟩ := sep_split (hf.comma _) (hf.comma _) h
  rw [List.append_cancel_left_eq, List.append_cancel_right_eq] at h
  exact made_ext ha hb (hf.inj _ _ h1) (hf.inj _ _ h2) (hf.inj _ _ h3) (hf.inj _ _ h4) (hf.inj _ _ h5)
    (hf.inj _ _ h)

/-- **C103** fails as stated without a condition: `==` compares hashes, and for every hash with finitely
many values there are two WCSs that compare equal although they put every pixel at different positions. -/
theorem C103_equal_means_same_fails (fmt : ℚ → PyStr) (n : Nat) (hash : PyStr → Fin n) :
    ∃ a b : AffineWCS, a.Made ∧ b.Made ∧ affineEq fmt hash a b = true ∧
      ∀ x y, a.image2sky x y ≠ b.image2sky x y := by
  obtain ⟨i, j, hne, he⟩ := Finite.exists_ne_map_eq_of_infinite fun i : Nat =>
    affineHash fmt hash ⟨1, 0, 0, 1, i, 0, 1⟩
  refine ⟨⟨1, 0, 0, 1, i, 0, 1⟩, ⟨1, 0, 0, 1, j, 0, 1⟩, ⟨1, 0, 0, 1, i, 0, by simp [AffineWCS.mk']⟩,
    ⟨1, 0, 0, 1, j, 0, by simp [AffineWCS.mk']⟩, by simpa [affineEq] using he, ?_⟩
  intro x y h
  simp only [AffineWCS.image2sky, Prod.mk.injEq] at h
  have := h.1
  have hij : (i : ℚ) = j := by linarith
  exact hne (by exact_mod_cast hij)

/-- The representations that the calls in a history compare. -/
def ReprOf {R : Type} (fmt : ℚ → PyStr) (pformat : SEState R → PyStr) (ops : List (CacheOp (InvArgs R)))
    (s : PyStr) : Prop :=
  ∃ a, .call a ∈ ops ∧ (s = affineRepr fmt a.wcs ∨ s = a.se.repr fmt pformat)

/-- **C103** (part) As long as no two representations that occur have the same hash, every history of
cached calls gives each WCS and each SE image its own lookups.  Missing: hash collisions, for which the
claim is false (`C103_equal_means_same_fails`). -/
theorem C103_lookups_partial {R κ : Type} [DecidableEq κ] (fit : Fit) (fmt : ℚ → PyStr) (hf : FmtSpec fmt)
    (pformat : SEState R → PyStr)
    (hp : ∀ s t, pformat s = pformat t → s.wcs = t.wcs ∧ s.offset = t.offset)
    (hash : PyStr → κ) (maxsize : Nat) (ops : List (CacheOp (InvArgs R)))
    (hmade : ∀ a, .call a ∈ ops → a.wcs.Made ∧ a.se.wcs.Made)
    (hcoll : ∀ s t, ReprOf fmt pformat ops s → ReprOf fmt pformat ops t → hash s = hash t → s = t) :
    (runCache (InvArgs.eval fit) (InvArgs.key fmt pformat hash) ⟨maxsize, []⟩ ops).1 =
      uncached (fun a => getWcsInverse fit a.wcs.sky2image a.off
        ⟨a.se.wcs.image2sky, a.se.wcs.sky2image, a.se.offset⟩ a.nrow a.ncol a.delta) ops := by
  refine Eq.trans ?_ (rfl : uncached (InvArgs.eval fit) ops = _)
  refine (C35_transparent _ _ maxsize ops ?_).1
  intro a b ha hb hk
  unfold InvArgs.key affineHash at hk
  simp only [Prod.mk.injEq] at hk
  obtain ⟨k1, k2, k3, k4, k5, k6⟩ := hk
  have e1 := C103_repr_injective fmt hf _ _ (hmade a ha).1 (hmade b hb).1
    (hcoll _ _ ⟨a, ha, Or.inl rfl⟩ ⟨b, hb, Or.inl rfl⟩ k1)
  have e2 := hcoll _ _ ⟨a, ha, Or.inr rfl⟩ ⟨b, hb, Or.inr rfl⟩ k3
  unfold SEIdent.repr at e2
  rw [List.append_cancel_left_eq] at e2
  obtain ⟨e3, e4⟩ := hp _ _ e2
  have e5 := C103_repr_injective fmt hf _ _ (hmade a ha).2 (hmade b hb).2 e3
  have e6 := hf.inj _ _ e4
  unfold InvArgs.eval
  rw [e1, k2, e5, e6, k4, k5, k6]

/-- Such a text of numbers. -/
def exFmt (q : ℚ) : PyStr := List.replicate (Encodable.encode q) '1'

theorem exFmt_spec : FmtSpec exFmt where
  inj p q h := by
    have := congrArg List.length h
    simpa [exFmt] using this
  comma q h := by
    have := List.eq_of_mem_replicate h
    simp at this

/-- A representation that shows the WCS and the offset. -/
def exPformat (s : SEState Unit) : PyStr := List.replicate s.wcs.length '1' ++ ',' :: (s.wcs ++ s.offset)

/-- A history with two different WCSs and a collision free hash. -/
example (fit : Fit) : (runCache (InvArgs.eval fit) (InvArgs.key exFmt exPformat id) ⟨1, []⟩
      [.call ⟨⟨1, 0, 0, 1, 5, 0, 1⟩, 1, ⟨(), [], ⟨2, 0, 0, 1, 5, 0, 2⟩, 1, [], [], []⟩, 9, 9, 8⟩,
        .call ⟨⟨2, 0, 0, 1, 5, 0, 2⟩, 1, ⟨(), [], ⟨1, 0, 0, 1, 5, 0, 1⟩, 1, [], [], []⟩, 9, 9, 8⟩]).1 =
    uncached (InvArgs.eval fit)
      [.call ⟨⟨1, 0, 0, 1, 5, 0, 1⟩, 1, ⟨(), [], ⟨2, 0, 0, 1, 5, 0, 2⟩, 1, [], [], []⟩, 9, 9, 8⟩,
        .call ⟨⟨2, 0, 0, 1, 5, 0, 2⟩, 1, ⟨(), [], ⟨1, 0, 0, 1, 5, 0, 1⟩, 1, [], [], []⟩, 9, 9, 8⟩] := by
  have m1 : AffineWCS.Made ⟨1, 0, 0, 1, 5, 0, 1⟩ := ⟨1, 0, 0, 1, 5, 0, by simp [AffineWCS.mk']⟩
  have m2 : AffineWCS.Made ⟨2, 0, 0, 1, 5, 0, 2⟩ := ⟨2, 0, 0, 1, 5, 0, by simp [AffineWCS.mk']⟩
  refine C103_lookups_partial fit exFmt exFmt_spec exPformat ?_ id 1 _ ?_ fun _ _ _ _ h => h
  · intro s t h
    unfold exPformat at h
    have hn : ∀ n, ',' ∉ List.replicate n '1' := by
      intro n h
      have := List.eq_of_mem_replicate h
      simp at this
    obtain ⟨h1, h2⟩ := sep_split (hn _) (hn _) h
    have := congrArg List.length h1
    simp only [List.length_replicate] at this
    exact List.append_inj h2 this
  · intro a ha
    simp only [List.mem_cons, CacheOp.call.injEq, List.not_mem_nil, or_false] at ha
    rcases ha with rfl | rfl
    · exact ⟨m1, m2⟩
    · exact ⟨m2, m1⟩

/-- `C103_repr_injective`: two WCSs with the same text. -/
example (b : AffineWCS) (hb : b.Made) (h : affineRepr exFmt ⟨1, 0, 0, 1, 5, 0, 1⟩ = affineRepr exFmt b) :=
  C103_repr_injective exFmt exFmt_spec ⟨1, 0, 0, 1, 5, 0, 1⟩ b ⟨1, 0, 0, 1, 5, 0, by simp [AffineWCS.mk']⟩ hb h

end Pizza
