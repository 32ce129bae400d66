import Verif.Model.SEInit
import Verif.Lemmas.Wcs
import Mathlib.Tactic.Ring
import Mathlib.Tactic.FieldSimp
import Mathlib.Tactic.Linarith

/-!
C107: an `SEImageSlice` holds the WCS, the PSF and the shape that were asked for, and reads only the files
named for them.  C108: the pixel area of an image is the determinant of its Jacobian, elementwise.
-/

namespace Pizza

/-! ### specification -/

/-- The WCS `w` is the one asked for. -/
def WcsRequested {P : Type} (disk : SEDisk P) (info : SESource P) (w : WcsObj) : Req WcsObj → Prop
  | .object w' => w = w'
  | .named s =>
    (s = "image" ∧ ∃ p e, info.imagePath = some p ∧ info.imageExt = some e ∧ disk.imageWcs p e = .ok w) ∨
    (s = "head" ∧ ∃ h p e, info.headPath = some h ∧ info.imagePath = some p ∧ info.imageExt = some e ∧
      disk.headWcs h p e = .ok w) ∨
    (s = "affine" ∧ info.affineWcs = some w) ∨
    (s = "pixmappy" ∧ ∃ p n m, info.piffPath = some p ∧ info.ccdnum = some n ∧ disk.piff p n = .ok (m, w))

/-- The PSF model `m` is the one asked for. -/
def PsfRequested {P : Type} (disk : SEDisk P) (info : SESource P) (m : P) : Req P → Prop
  | .object m' => m = m'
  | .named s =>
    (s = "galsim" ∧ info.galsimPsf = some m) ∨
    (s = "psfex" ∧ ∃ p, info.psfexPath = some p ∧ disk.psfex p = .ok m) ∨
    (s = "piff" ∧ ∃ p n w, info.piffPath = some p ∧ info.ccdnum = some n ∧ disk.piff p n = .ok (m, w))

/-- `(rows, cols)` is the size of the image: the given one, or that in the header, of the uncompressed
image if the image is compressed. -/
def ShapeOf {P : Type} (disk : SEDisk P) (info : SESource P) (rows cols : Nat) : Prop :=
  info.imageShape = some (rows, cols) ∨
  (info.imageShape = none ∧ ∃ p e h, info.imagePath = some p ∧ info.imageExt = some e ∧ disk.header p e = .ok h ∧
    ((h "znaxis1" = some cols ∧ h "znaxis2" = some rows) ∨
     (h "znaxis1" = none ∧ h "naxis1" = some cols ∧ h "naxis2" = some rows)))

/-- The reads allowed for a WCS. -/
def WcsReadOf {P : Type} (info : SESource P) (rd : SERead) : Req WcsObj → Prop
  | .object _ => False
  | .named s =>
    (s = "image" ∧ ∃ p e, info.imagePath = some p ∧ info.imageExt = some e ∧ rd = .imageHeader p e) ∨
    (s = "head" ∧ ∃ h p e, info.headPath = some h ∧ info.imagePath = some p ∧ info.imageExt = some e ∧
      rd = .headFile h p e) ∨
    (s = "pixmappy" ∧ ∃ p n, info.piffPath = some p ∧ info.ccdnum = some n ∧ rd = .piff p n)

/-- The reads allowed for a PSF. -/
def PsfReadOf {P : Type} (info : SESource P) (rd : SERead) : Req P → Prop
  | .object _ => False
  | .named s =>
    (s = "psfex" ∧ ∃ p, info.psfexPath = some p ∧ rd = .psfex p) ∨
    (s = "piff" ∧ ∃ p n, info.piffPath = some p ∧ info.ccdnum = some n ∧ rd = .piff p n)

/-- The reads allowed for the shape. -/
def ShapeReadOf {P : Type} (info : SESource P) (rd : SERead) : Prop :=
  info.imageShape = none ∧ ∃ p e, info.imagePath = some p ∧ info.imageExt = some e ∧ rd = .shape p e

/-! ### the computation with reads -/

theorem Reads.bind_def {α β : Type} (m : Reads α) (f : α → Reads β) :
    (m >>= f) = match m.out with
      | .error e => ⟨m.log, .error e⟩
      | .ok a => ⟨m.log ++ (f a).log, (f a).out⟩ := rfl

theorem Reads.bind_out {α β : Type} (m : Reads α) (f : α → Reads β) (b : β) :
    (m >>= f).out = .ok b ↔ ∃ a, m.out = .ok a ∧ (f a).out = .ok b := by
  rw [Reads.bind_def]
  rcases m with ⟨l, e | a⟩ <;> simp

theorem Reads.mem_bind {α β : Type} (m : Reads α) (f : α → Reads β) (rd : SERead)
    (h : rd ∈ (m >>= f).log) : rd ∈ m.log ∨ ∃ a, m.out = .ok a ∧ rd ∈ (f a).log := by
  rw [Reads.bind_def] at h
  rcases m with ⟨l, e | a⟩
  · exact Or.inl h
  · rcases List.mem_append.1 h with h | h
    · exact Or.inl h
    · exact Or.inr ⟨a, rfl, h⟩

theorem Reads.bind_error {α β : Type} (m : Reads α) (f : α → Reads β) (e : Err) (h : m.out = .error e) :
    (m >>= f) = ⟨m.log, .error e⟩ := by
  rw [Reads.bind_def, h]

theorem Reads.pure_out {α : Type} (a b : α) : (pure a : Reads α).out = .ok b ↔ a = b := by
  change (Except.ok a : Except Err α) = Except.ok b ↔ a = b
  simp

theorem Reads.pure_log {α : Type} (a : α) : (pure a : Reads α).log = [] := rfl

theorem Reads.key_out {α : Type} (o : Option α) (a : α) : (Reads.key o).out = .ok a ↔ o = some a := by
  unfold Reads.key
  cases o <;> simp

theorem Reads.key_log {α : Type} (o : Option α) : (Reads.key o).log = [] := rfl

theorem Reads.read_out {α : Type} (r : SERead) (e : Except Err α) (a : α) :
    (Reads.read r e).out = .ok a ↔ e = .ok a := Iff.rfl

theorem Reads.read_log {α : Type} (r : SERead) (e : Except Err α) : (Reads.read r e).log = [r] := rfl

theorem Reads.ofExcept_out {α : Type} (e : Except Err α) (a : α) :
    (Reads.ofExcept e).out = .ok a ↔ e = .ok a := Iff.rfl

theorem Reads.ofExcept_log {α : Type} (e : Except Err α) : (Reads.ofExcept e).log = [] := rfl

theorem Reads.raise_out {α : Type} (e : Err) (a : α) : (Reads.raise e : Reads α).out = .ok a ↔ False := by
  simp [Reads.raise]

theorem Reads.raise_log {α : Type} (e : Err) : (Reads.raise e : Reads α).log = [] := rfl

/-! ### the pieces -/

theorem seWcs_out {P : Type} (disk : SEDisk P) (info : SESource P) (req : Req WcsObj) (w : WcsObj) :
    (seWcs disk info req).out = .ok w ↔ WcsRequested disk info w req := by
  rcases req with s | a
  · unfold seWcs WcsRequested
    dsimp only
    by_cases h1 : s = "image"
    · subst h1
      simp [Reads.bind_out, Reads.key_out, Reads.read_out]
    rw [if_neg h1]
    by_cases h2 : s = "head"
    · subst h2
      simp [Reads.bind_out, Reads.key_out, Reads.read_out]
    rw [if_neg h2]
    by_cases h3 : s = "affine"
    · subst h3
      simp [Reads.key_out]
    rw [if_neg h3]
    by_cases h4 : s = "pixmappy"
    · subst h4
      simp [Reads.bind_out, Reads.key_out, Reads.read_out, Reads.pure_out]
    rw [if_neg h4]
    simp [h1, h2, h3, h4, Reads.raise_out]
  · exact (Reads.pure_out _ _).trans eq_comm

theorem sePsf_out {P : Type} (disk : SEDisk P) (info : SESource P) (req : Req P) (m : P) :
    (sePsf disk info req).out = .ok m ↔ PsfRequested disk info m req := by
  rcases req with s | a
  · unfold sePsf PsfRequested
    dsimp only
    by_cases h1 : s = "galsim"
    · subst h1
      simp [Reads.key_out]
    rw [if_neg h1]
    by_cases h2 : s = "psfex"
    · subst h2
      simp [Reads.bind_out, Reads.key_out, Reads.read_out]
    rw [if_neg h2]
    by_cases h3 : s = "piff"
    · subst h3
      simp [Reads.bind_out, Reads.key_out, Reads.read_out, Reads.pure_out]
    rw [if_neg h3]
    simp [h1, h2, h3, Reads.raise_out]
  · exact (Reads.pure_out _ _).trans eq_comm

theorem headerShape_ok (h : String → Option Nat) (r c : Nat) :
    headerShape h = .ok (r, c) ↔
      ((h "znaxis1" = some c ∧ h "znaxis2" = some r) ∨
       (h "znaxis1" = none ∧ h "naxis1" = some c ∧ h "naxis2" = some r)) := by
  unfold headerShape
  rcases hz : h "znaxis1" with _ | z
  · rcases hr : h "naxis2" with _ | r' <;> rcases hc : h "naxis1" with _ | c' <;>
      simp [bind, Except.bind, pure, Except.pure, hr, hc, and_comm]
  · rcases hr : h "znaxis2" with _ | r' <;> simp [bind, Except.bind, pure, Except.pure, hz, hr, and_comm]

theorem seShape_out {P : Type} (disk : SEDisk P) (info : SESource P) (r c : Nat) :
    (seShape disk info).out = .ok (r, c) ↔ ShapeOf disk info r c := by
  unfold seShape ShapeOf
  rcases info.imageShape with _ | s
  · simp only [Reads.bind_out, Reads.key_out, Reads.read_out, Reads.ofExcept_out, headerShape_ok]
    simp
  · simp [Reads.pure_out]

theorem evaluable_ok (w : WcsObj) (offset : ℚ) (f : ℚ → ℚ → ℚ × ℚ) :
    w.evaluable offset = .ok f ↔
      (w.cls = .affine ∨ w.cls = .esutil ∨ w.cls = .galsimCelestial) ∧
        f = fun x y => w.fwd (x + offset) (y + offset) := by
  unfold WcsObj.evaluable
  cases w.cls <;> simp [eq_comm]

theorem seWcs_log {P : Type} (disk : SEDisk P) (info : SESource P) (req : Req WcsObj) (rd : SERead)
    (h : rd ∈ (seWcs disk info req).log) : WcsReadOf info rd req := by
  rcases req with s | a
  · unfold seWcs at h
    unfold WcsReadOf
    dsimp only at h ⊢
    by_cases h1 : s = "image"
    · rw [if_pos h1] at h
      rcases Reads.mem_bind _ _ _ h with h | ⟨p, hp, h⟩
      · simp [Reads.key_log] at h
      rcases Reads.mem_bind _ _ _ h with h | ⟨e, he, h⟩
      · simp [Reads.key_log] at h
      simp only [Reads.read_log, List.mem_singleton] at h
      exact Or.inl ⟨h1, p, e, (Reads.key_out _ _).1 hp, (Reads.key_out _ _).1 he, h⟩
    rw [if_neg h1] at h
    by_cases h2 : s = "head"
    · rw [if_pos h2] at h
      rcases Reads.mem_bind _ _ _ h with h | ⟨a, ha, h⟩
      · simp [Reads.key_log] at h
      rcases Reads.mem_bind _ _ _ h with h | ⟨p, hp, h⟩
      · simp [Reads.key_log] at h
      rcases Reads.mem_bind _ _ _ h with h | ⟨e, he, h⟩
      · simp [Reads.key_log] at h
      simp only [Reads.read_log, List.mem_singleton] at h
      exact Or.inr (Or.inl ⟨h2, a, p, e, (Reads.key_out _ _).1 ha, (Reads.key_out _ _).1 hp,
        (Reads.key_out _ _).1 he, h⟩)
    rw [if_neg h2] at h
    by_cases h3 : s = "affine"
    · rw [if_pos h3] at h
      simp [Reads.key_log] at h
    rw [if_neg h3] at h
    by_cases h4 : s = "pixmappy"
    · rw [if_pos h4] at h
      rcases Reads.mem_bind _ _ _ h with h | ⟨p, hp, h⟩
      · simp [Reads.key_log] at h
      rcases Reads.mem_bind _ _ _ h with h | ⟨n, hn, h⟩
      · simp [Reads.key_log] at h
      rcases Reads.mem_bind _ _ _ h with h | ⟨r, hr, h⟩
      · simp only [Reads.read_log, List.mem_singleton] at h
        exact Or.inr (Or.inr ⟨h4, p, n, (Reads.key_out _ _).1 hp, (Reads.key_out _ _).1 hn, h⟩)
      · simp [Reads.pure_log] at h
    rw [if_neg h4] at h
    simp [Reads.raise_log] at h
  · simp [seWcs, Reads.pure_log] at h

theorem sePsf_log {P : Type} (disk : SEDisk P) (info : SESource P) (req : Req P) (rd : SERead)
    (h : rd ∈ (sePsf disk info req).log) : PsfReadOf info rd req := by
  rcases req with s | a
  · unfold sePsf at h
    unfold PsfReadOf
    dsimp only at h ⊢
    by_cases h1 : s = "galsim"
    · rw [if_pos h1] at h
      simp [Reads.key_log] at h
    rw [if_neg h1] at h
    by_cases h2 : s = "psfex"
    · rw [if_pos h2] at h
      rcases Reads.mem_bind _ _ _ h with h | ⟨p, hp, h⟩
      · simp [Reads.key_log] at h
      simp only [Reads.read_log, List.mem_singleton] at h
      exact Or.inl ⟨h2, p, (Reads.key_out _ _).1 hp, h⟩
    rw [if_neg h2] at h
    by_cases h3 : s = "piff"
    · rw [if_pos h3] at h
      rcases Reads.mem_bind _ _ _ h with h | ⟨p, hp, h⟩
      · simp [Reads.key_log] at h
      rcases Reads.mem_bind _ _ _ h with h | ⟨n, hn, h⟩
      · simp [Reads.key_log] at h
      rcases Reads.mem_bind _ _ _ h with h | ⟨r, hr, h⟩
      · simp only [Reads.read_log, List.mem_singleton] at h
        exact Or.inr ⟨h3, p, n, (Reads.key_out _ _).1 hp, (Reads.key_out _ _).1 hn, h⟩
      · simp [Reads.pure_log] at h
    rw [if_neg h3] at h
    simp [Reads.raise_log] at h
  · simp [sePsf, Reads.pure_log] at h

theorem seShape_log {P : Type} (disk : SEDisk P) (info : SESource P) (rd : SERead)
    (h : rd ∈ (seShape disk info).log) : ShapeReadOf info rd := by
  unfold seShape at h
  unfold ShapeReadOf
  rcases hs : info.imageShape with _ | s
  · rw [hs] at h
    rcases Reads.mem_bind _ _ _ h with h | ⟨p, hp, h⟩
    · simp [Reads.key_log] at h
    rcases Reads.mem_bind _ _ _ h with h | ⟨e, he, h⟩
    · simp [Reads.key_log] at h
    rcases Reads.mem_bind _ _ _ h with h | ⟨r, hr, h⟩
    · simp only [Reads.read_log, List.mem_singleton] at h
      exact ⟨rfl, p, e, (Reads.key_out _ _).1 hp, (Reads.key_out _ _).1 he, h⟩
    · simp [Reads.ofExcept_log] at h
  · rw [hs] at h
    simp [Reads.pure_log] at h

/-! ### C107 -/

/-- **C107.**  Exactly when construction succeeds and with what: the WCS, the PSF and the shape are those
asked for, the image is not empty, the WCS is an affine, an esutil or a celestial GalSim WCS, the sky bounds
are those of this WCS with the position offset of the image, taken as celestial unless the WCS is affine. -/
theorem C107_init {P : Type} (disk : SEDisk P) (info : SESource P) (offset : ℚ) (wcs : Req WcsObj) (psf : Req P)
    (r : SEConstructed P) :
    (seInit disk info offset wcs psf).out = .ok r ↔
      WcsRequested disk info r.wcs wcs ∧ PsfRequested disk info r.psf psf ∧
      ShapeOf disk info r.shape.1 r.shape.2 ∧ 0 < r.shape.1 ∧ 0 < r.shape.2 ∧
      (r.wcs.cls = .affine ∨ r.wcs.cls = .esutil ∨ r.wcs.cls = .galsimCelestial) ∧
      (r.celestial = true ↔ r.wcs.cls ≠ .affine) ∧
      disk.skyBounds r.shape (fun x y => r.wcs.fwd (x + offset) (y + offset)) r.celestial =
        .ok (r.skyBnds, r.raCcd, r.decCcd) ∧
      r.ccdBnds = ⟨0, (r.shape.1 : ℤ) - 1, 0, (r.shape.2 : ℤ) - 1⟩ ∧
      (∀ s, r.wcsType = some s ↔ ∃ t, wcs = .named t ∧ t = s) := by
  have hcel : ∀ w : WcsObj, (w.cls = .affine ∨ w.cls = .esutil ∨ w.cls = .galsimCelestial) →
      (w.initCelestial = true ↔ w.cls ≠ .affine) := by
    intro w h
    unfold WcsObj.initCelestial
    rcases h with h | h | h <;> simp [h]
  unfold seInit
  simp only [Reads.bind_out, seWcs_out, sePsf_out]
  constructor
  · rintro ⟨w, hw, m, hm, ⟨a, b⟩, hs, h⟩
    rw [seShape_out] at hs
    by_cases h0 : a = 0 ∨ b = 0
    · rw [if_pos h0] at h
      exact absurd h (by simp [Reads.raise])
    rw [if_neg h0] at h
    simp only [Reads.bind_out, Reads.ofExcept_out, Reads.pure_out, evaluable_ok] at h
    obtain ⟨f, ⟨hc, rfl⟩, ⟨b1, b2, b3⟩, hb, rfl⟩ := h
    refine ⟨hw, hm, hs, ?_, ?_, hc, hcel w hc, hb, rfl, ?_⟩
    · dsimp only; omega
    · dsimp only; omega
    · intro s
      rcases wcs with t | o <;> simp
  · rcases r with ⟨w, ty, m, ⟨a, b⟩, cel, sb, ra, dec, cb⟩
    rintro ⟨hw, hm, hs, ha, hb, hc, hce, hk, hcb, hty⟩
    dsimp only at hw hm hs ha hb hc hce hk hcb hty
    refine ⟨w, hw, m, hm, (a, b), (seShape_out _ _ _ _).2 hs, ?_⟩
    rw [if_neg (by dsimp only; omega)]
    have hcc : cel = w.initCelestial := by
      have h1 := hcel w hc
      cases cel <;> cases hi : w.initCelestial <;> simp_all
    simp only [Reads.bind_out, Reads.ofExcept_out, Reads.pure_out, evaluable_ok]
    refine ⟨_, ⟨hc, rfl⟩, (sb, ra, dec), hcc ▸ hk, ?_⟩
    rw [hcb, hcc]
    congr 1
    rcases wcs with t | o
    · exact ((hty t).2 ⟨t, rfl, rfl⟩).symm
    · rcases ty with _ | s
      · rfl
      · obtain ⟨t, ht, _⟩ := (hty s).1 rfl
        cases ht

/-- **C107, celestial flag.**  The flag used for the sky bounds agrees with `is_celestial`. -/
theorem C107_celestial {P : Type} (disk : SEDisk P) (info : SESource P) (offset : ℚ) (wcs : Req WcsObj)
    (psf : Req P) (r : SEConstructed P) (h : (seInit disk info offset wcs psf).out = .ok r) :
    r.celestial = r.wcs.isCelestial := by
  obtain ⟨_, _, _, _, _, hc, hcel, _⟩ := (C107_init disk info offset wcs psf r).1 h
  rcases hc with hc | hc | hc <;> cases hr : r.celestial <;> simp_all [WcsObj.isCelestial]

/-- **C107, one file.**  With the WCS "pixmappy" and the PSF "piff" both come from the same PIFF file and
CCD. -/
theorem C107_one_piff {P : Type} (disk : SEDisk P) (info : SESource P) (offset : ℚ) (r : SEConstructed P)
    (h : (seInit disk info offset (.named "pixmappy") (.named "piff")).out = .ok r) :
    ∃ p n, info.piffPath = some p ∧ info.ccdnum = some n ∧ disk.piff p n = .ok (r.psf, r.wcs) := by
  obtain ⟨hw, hp, _⟩ := (C107_init disk info offset _ _ r).1 h
  simp only [WcsRequested, PsfRequested] at hw hp
  simp at hw hp
  obtain ⟨p, hp1, n, hn, ⟨m, hm⟩⟩ := hw
  obtain ⟨p', hp1', n', hn', ⟨w, hw⟩⟩ := hp
  rw [hp1] at hp1'
  rw [hn] at hn'
  cases hp1'
  cases hn'
  rw [hm] at hw
  cases hw
  exact ⟨p, n, hp1, hn, hm⟩

/-- **C107, reads.**  Whether or not construction succeeds, only the files named for the WCS, the PSF and,
if no shape is given, the shape are read. -/
theorem C107_reads {P : Type} (disk : SEDisk P) (info : SESource P) (offset : ℚ) (wcs : Req WcsObj)
    (psf : Req P) (rd : SERead) (h : rd ∈ (seInit disk info offset wcs psf).log) :
    WcsReadOf info rd wcs ∨ PsfReadOf info rd psf ∨ ShapeReadOf info rd := by
  unfold seInit at h
  rcases Reads.mem_bind _ _ _ h with h | ⟨w, hw, h⟩
  · exact Or.inl (seWcs_log disk info wcs rd h)
  rcases Reads.mem_bind _ _ _ h with h | ⟨m, hm, h⟩
  · exact Or.inr (Or.inl (sePsf_log disk info psf rd h))
  rcases Reads.mem_bind _ _ _ h with h | ⟨s, hs, h⟩
  · exact Or.inr (Or.inr (seShape_log disk info rd h))
  exfalso
  by_cases h0 : s.1 = 0 ∨ s.2 = 0
  · rw [if_pos h0] at h
    simp [Reads.raise_log] at h
  rw [if_neg h0] at h
  rcases Reads.mem_bind _ _ _ h with h | ⟨f, hf, h⟩
  · simp [Reads.ofExcept_log] at h
  rcases Reads.mem_bind _ _ _ h with h | ⟨b, hb, h⟩
  · simp [Reads.ofExcept_log] at h
  simp [Reads.pure_log] at h

/-- **C107, order.**  If no WCS can be had, the exception is that of the WCS and nothing is read for the PSF
or the shape.  If the WCS can be had but no PSF, the exception is that of the PSF and nothing is read for
the shape. -/
theorem C107_order {P : Type} (disk : SEDisk P) (info : SESource P) (offset : ℚ) (wcs : Req WcsObj)
    (psf : Req P) :
    ((∀ w, ¬ WcsRequested disk info w wcs) →
      (∃ e, (seInit disk info offset wcs psf).out = .error e) ∧
      ∀ rd ∈ (seInit disk info offset wcs psf).log, WcsReadOf info rd wcs) ∧
    ((∀ m, ¬ PsfRequested disk info m psf) →
      (∃ e, (seInit disk info offset wcs psf).out = .error e) ∧
      ∀ rd ∈ (seInit disk info offset wcs psf).log, WcsReadOf info rd wcs ∨ PsfReadOf info rd psf) := by
  constructor
  · intro h
    rcases hw : (seWcs disk info wcs).out with e | w
    · have : seInit disk info offset wcs psf = ⟨(seWcs disk info wcs).log, .error e⟩ := by
        unfold seInit
        exact Reads.bind_error _ _ e hw
      rw [this]
      exact ⟨⟨e, rfl⟩, fun rd hrd => seWcs_log disk info wcs rd hrd⟩
    · exact absurd ((seWcs_out _ _ _ _).1 hw) (h w)
  · intro h
    rcases hm : (sePsf disk info psf).out with e | m
    · constructor
      · rcases ho : (seInit disk info offset wcs psf).out with e' | r
        · exact ⟨e', rfl⟩
        · exact absurd ((C107_init disk info offset wcs psf r).1 ho).2.1 (h r.psf)
      · intro rd hrd
        unfold seInit at hrd
        rcases Reads.mem_bind _ _ _ hrd with h1 | ⟨w, hw, h1⟩
        · exact Or.inl (seWcs_log disk info wcs rd h1)
        rw [Reads.bind_error _ _ e hm] at h1
        exact Or.inr (sePsf_log disk info psf rd h1)
    · exact absurd ((sePsf_out _ _ _ _).1 hm) (h m)

/-- **C107, exceptions.**  A type name that is not one of the four is a RuntimeError; a missing entry for a
known type is a KeyError; the exception of the loader is passed on. -/
theorem C107_wcs_errors {P : Type} (disk : SEDisk P) (info : SESource P) (offset : ℚ) (psf : Req P)
    (s : String) :
    (s ≠ "image" → s ≠ "head" → s ≠ "affine" → s ≠ "pixmappy" →
      (seInit disk info offset (.named s) psf).out = .error .runtimeError) ∧
    ((s = "image" ∨ s = "head") → (info.imagePath = none ∨ info.imageExt = none) →
      (seInit disk info offset (.named s) psf).out = .error .keyError) ∧
    (s = "head" → info.headPath = none → (seInit disk info offset (.named s) psf).out = .error .keyError) ∧
    (s = "affine" → info.affineWcs = none → (seInit disk info offset (.named s) psf).out = .error .keyError) ∧
    (s = "pixmappy" → (info.piffPath = none ∨ info.ccdnum = none) →
      (seInit disk info offset (.named s) psf).out = .error .keyError) ∧
    (∀ p e x, s = "image" → info.imagePath = some p → info.imageExt = some e → disk.imageWcs p e = .error x →
      (seInit disk info offset (.named s) psf).out = .error x) ∧
    (∀ h p e x, s = "head" → info.headPath = some h → info.imagePath = some p → info.imageExt = some e →
      disk.headWcs h p e = .error x → (seInit disk info offset (.named s) psf).out = .error x) ∧
    (∀ p n x, s = "pixmappy" → info.piffPath = some p → info.ccdnum = some n → disk.piff p n = .error x →
      (seInit disk info offset (.named s) psf).out = .error x) := by
  have key : ∀ e, (seWcs disk info (.named s)).out = .error e →
      (seInit disk info offset (.named s) psf).out = .error e := by
    intro e he
    unfold seInit
    rw [Reads.bind_error _ _ e he]
  refine ⟨?_, ?_, ?_, ?_, ?_, ?_, ?_, ?_⟩
  · intro h1 h2 h3 h4
    apply key
    simp [seWcs, h1, h2, h3, h4, Reads.raise]
  · rintro (rfl | rfl) h
    · apply key
      rcases hp : info.imagePath with _ | p <;> rcases he : info.imageExt with _ | e <;>
        simp_all [seWcs, Reads.bind_def, Reads.key]
    · apply key
      rcases hh : info.headPath with _ | a <;> rcases hp : info.imagePath with _ | p <;>
        rcases he : info.imageExt with _ | e <;> simp_all [seWcs, Reads.bind_def, Reads.key]
  · rintro rfl h
    apply key
    simp [seWcs, Reads.bind_def, Reads.key, h]
  · rintro rfl h
    apply key
    simp [seWcs, Reads.key, h]
  · rintro rfl h
    apply key
    rcases hp : info.piffPath with _ | p <;> rcases he : info.ccdnum with _ | e <;>
      simp_all [seWcs, Reads.bind_def, Reads.key]
  · rintro p e x rfl hp he h
    apply key
    simp [seWcs, Reads.bind_def, Reads.key, hp, he, Reads.read, h]
  · rintro a p e x rfl ha hp he h
    apply key
    simp [seWcs, Reads.bind_def, Reads.key, ha, hp, he, Reads.read, h]
  · rintro p n x rfl hp hn h
    apply key
    simp [seWcs, Reads.bind_def, Reads.key, hp, hn, Reads.read, h]

/-- **C107, exceptions of the PSF.**  Once the WCS is had, a PSF type that is not one of the three is a
RuntimeError, a missing entry for a known type a KeyError, and the exception of the loader is passed on. -/
theorem C107_psf_errors {P : Type} (disk : SEDisk P) (info : SESource P) (offset : ℚ) (wcs : Req WcsObj)
    (w : WcsObj) (hw : WcsRequested disk info w wcs) (s : String) :
    (s ≠ "galsim" → s ≠ "psfex" → s ≠ "piff" →
      (seInit disk info offset wcs (.named s)).out = .error .runtimeError) ∧
    (s = "galsim" → info.galsimPsf = none → (seInit disk info offset wcs (.named s)).out = .error .keyError) ∧
    (s = "psfex" → info.psfexPath = none → (seInit disk info offset wcs (.named s)).out = .error .keyError) ∧
    (s = "piff" → (info.piffPath = none ∨ info.ccdnum = none) →
      (seInit disk info offset wcs (.named s)).out = .error .keyError) ∧
    (∀ p x, s = "psfex" → info.psfexPath = some p → disk.psfex p = .error x →
      (seInit disk info offset wcs (.named s)).out = .error x) ∧
    (∀ p n x, s = "piff" → info.piffPath = some p → info.ccdnum = some n → disk.piff p n = .error x →
      (seInit disk info offset wcs (.named s)).out = .error x) := by
  have key : ∀ e, (sePsf disk info (.named s)).out = .error e →
      (seInit disk info offset wcs (.named s)).out = .error e := by
    intro e he
    unfold seInit
    rw [Reads.bind_def, (seWcs_out disk info wcs w).2 hw]
    dsimp only
    rw [Reads.bind_error _ _ e he]
  refine ⟨?_, ?_, ?_, ?_, ?_, ?_⟩
  · intro h1 h2 h3
    apply key
    simp [sePsf, h1, h2, h3, Reads.raise]
  · rintro rfl h
    apply key
    simp [sePsf, Reads.key, h]
  · rintro rfl h
    apply key
    simp [sePsf, Reads.bind_def, Reads.key, h]
  · rintro rfl h
    apply key
    rcases hp : info.piffPath with _ | p <;> rcases he : info.ccdnum with _ | e <;>
      simp_all [sePsf, Reads.bind_def, Reads.key]
  · rintro p x rfl hp h
    apply key
    simp [sePsf, Reads.bind_def, Reads.key, hp, Reads.read, h]
  · rintro p n x rfl hp hn h
    apply key
    simp [sePsf, Reads.bind_def, Reads.key, hp, hn, Reads.read, h]

/-- **C107, Euclidean GalSim WCS.**  The constructor provides for GalSim WCSs that are not celestial, but an
image with such a WCS cannot be constructed: if WCS, PSF and shape are had, it is an AssertionError. -/
theorem C107_euclidean_refused {P : Type} (disk : SEDisk P) (info : SESource P) (offset : ℚ) (wcs : Req WcsObj)
    (psf : Req P) (w : WcsObj) (m : P) (rows cols : Nat) (hw : WcsRequested disk info w wcs)
    (hm : PsfRequested disk info m psf) (hs : ShapeOf disk info rows cols) (h0 : 0 < rows) (h1 : 0 < cols) :
    (w.cls = .galsimEuclidean → w.initCelestial = false ∧
      (seInit disk info offset wcs psf).out = .error .assertionError) ∧
    (w.cls = .other → (seInit disk info offset wcs psf).out = .error .valueError) := by
  have key : ∀ e, w.evaluable offset = .error e → (seInit disk info offset wcs psf).out = .error e := by
    intro e he
    unfold seInit
    rw [Reads.bind_def, (seWcs_out disk info wcs w).2 hw]
    dsimp only
    rw [Reads.bind_def, (sePsf_out disk info psf m).2 hm]
    dsimp only
    rw [Reads.bind_def, (seShape_out disk info rows cols).2 hs]
    dsimp only
    rw [if_neg (by omega)]
    rw [Reads.bind_error _ _ e (by exact he)]
  constructor
  · intro hc
    exact ⟨by simp [WcsObj.initCelestial, hc], key _ (by simp [WcsObj.evaluable, hc])⟩
  · intro hc
    exact key _ (by simp [WcsObj.evaluable, hc])

/-! ### C108 -/

/-- The determinant of a Jacobian (dudx, dudy, dvdx, dvdy). -/
def jacDet (j : ℚ × ℚ × ℚ × ℚ) : ℚ := j.1 * j.2.2.2 - j.2.1 * j.2.2.1

/-- **C108, esutil.**  For any esutil WCS, however distorted, and any position offset, the pixel area is the
determinant of the Jacobian at the same position. -/
theorem C108_esutil (image2sky sky2image : ℚ → ℚ → ℚ × ℚ) (cosd : ℚ → ℚ) (offset x y : ℚ) :
    ∃ a j, (WcsObj.ofEsutil image2sky sky2image cosd).pixelArea cosd offset (.scalar x) (.scalar y) = .ok (.scalar a) ∧
      (WcsObj.ofEsutil image2sky sky2image cosd).jacobianAt offset (.scalar x) (.scalar y) = .ok j ∧
      a = |jacDet j| := by
  refine ⟨_, _, rfl, rfl, ?_⟩
  simp only [WcsObj.ofEsutil, WcsObj.isCelestial, computeWcsArea, getJacobian, jacDet, if_true]
  have e1 : x + 1 + offset = x + offset + 1 := by ring
  have e2 : x - 1 + offset = x + offset - 1 := by ring
  have e3 : y + 1 + offset = y + offset + 1 := by ring
  have e4 : y - 1 + offset = y + offset - 1 := by ring
  rw [e1, e2, e3, e4]
  congr 1
  ring

/-- **C108, affine.**  Likewise for an affine WCS; both do not depend on the position. -/
theorem C108_affine (w : AffineWCS) (cosd : ℚ → ℚ) (offset x y : ℚ) :
    ∃ a j, (WcsObj.ofAffine w).pixelArea cosd offset (.scalar x) (.scalar y) = .ok (.scalar a) ∧
      (WcsObj.ofAffine w).jacobianAt offset (.scalar x) (.scalar y) = .ok j ∧
      a = |jacDet j| ∧ j = (w.dudx, w.dudy, w.dvdx, w.dvdy) := by
  refine ⟨_, _, rfl, rfl, ?_, rfl⟩
  simp only [WcsObj.ofAffine, WcsObj.isCelestial, computeWcsArea, AffineWCS.getJacobian, jacDet,
    AffineWCS.image2sky, Bool.false_eq_true, if_false]
  congr 1
  ring

/-- **C108, differences.**  The Jacobian of an esutil WCS is that of the differences of sky positions over two pixels about
the given position, `sky` being the sky position of a zero-indexed pixel: of right ascensions the shorter way round, in
arcseconds and on a tangent plane where right ascension increases to the left. -/
theorem C108_differences (image2sky sky2image : ℚ → ℚ → ℚ × ℚ) (cosd : ℚ → ℚ) (offset x y : ℚ) (sky : ℚ → ℚ → ℚ × ℚ)
    (hsky : ∀ p q, sky p q = image2sky (p + offset) (q + offset)) :
    ∃ (rx ry : ℚ) (kx ky : ℤ), (sky (x + 1) y).1 - (sky (x - 1) y).1 = rx + 360 * kx ∧
      (sky x (y + 1)).1 - (sky x (y - 1)).1 = ry + 360 * ky ∧ |rx| ≤ 180 ∧ |ry| ≤ 180 ∧
      (WcsObj.ofEsutil image2sky sky2image cosd).jacobianAt offset (.scalar x) (.scalar y) =
        .ok (-(3600 * cosd (sky x y).2 * (rx / 2)), -(3600 * cosd (sky x y).2 * (ry / 2)),
          3600 * (((sky (x + 1) y).2 - (sky (x - 1) y).2) / 2), 3600 * (((sky x (y + 1)).2 - (sky x (y - 1)).2) / 2)) := by
  have e1 : x + 1 + offset = x + offset + 1 := by ring
  have e2 : x - 1 + offset = x + offset - 1 := by ring
  have e3 : y + 1 + offset = y + offset + 1 := by ring
  have e4 : y - 1 + offset = y + offset - 1 := by ring
  simp only [hsky, e1, e2, e3, e4]
  obtain ⟨a1, a2, ⟨j, hj⟩, -⟩ := wrapFin_spec
    ((image2sky (x + offset + 1) (y + offset)).1 - (image2sky (x + offset - 1) (y + offset)).1)
  obtain ⟨b1, b2, ⟨k, hk⟩, -⟩ := wrapFin_spec
    ((image2sky (x + offset) (y + offset + 1)).1 - (image2sky (x + offset) (y + offset - 1)).1)
  refine ⟨_, _, -j, -k, ?_, ?_, abs_le.2 ⟨a1, a2⟩, abs_le.2 ⟨b1, b2⟩, ?_⟩
  · rw [hj]; push_cast; ring
  · rw [hk]; push_cast; ring
  · simp only [WcsObj.jacobianAt, WcsObj.ofEsutil, getJacobian, Except.ok.injEq, Prod.mk.injEq]
    refine ⟨?_, ?_, ?_, ?_⟩ <;> ring

/-- **C108, offset.**  For every kind of WCS the position offset only moves the position. -/
theorem C108_offset (w : WcsObj) (cosd : ℚ → ℚ) (offset x y : ℚ) :
    w.pixelArea cosd offset (.scalar x) (.scalar y) = w.pixelArea cosd 0 (.scalar (x + offset)) (.scalar (y + offset)) ∧
    w.jacobianAt offset (.scalar x) (.scalar y) = w.jacobianAt 0 (.scalar (x + offset)) (.scalar (y + offset)) := by
  have e1 : x + 1 + offset = x + offset + 1 := by ring
  have e2 : x - 1 + offset = x + offset - 1 := by ring
  have e3 : y + 1 + offset = y + offset + 1 := by ring
  have e4 : y - 1 + offset = y + offset - 1 := by ring
  constructor
  · cases h : w.cls <;>
      simp [WcsObj.pixelArea, WcsObj.evaluable, h, Arg.ndim, bind, Except.bind, broadcast, Arg.flat, pure, Except.pure,
        computeWcsArea, e1, e2, e3, e4]
  · simp only [WcsObj.jacobianAt, add_zero]

/-- **C108, arrays.**  The areas of an array of positions are the areas of the positions one by one. -/
theorem C108_arrays (w : WcsObj) (cosd : ℚ → ℚ) (offset : ℚ) (xs ys : List ℚ) (hlen : xs.length = ys.length)
    (hc : w.cls = .affine ∨ w.cls = .esutil ∨ w.cls = .galsimCelestial) :
    ∃ as, w.pixelArea cosd offset (.arr xs) (.arr ys) = .ok (.arr as) ∧ as.length = xs.length ∧
      ∀ i (hx : i < xs.length) (hy : i < ys.length) (ha : i < as.length),
        w.pixelArea cosd offset (.scalar xs[i]) (.scalar ys[i]) = .ok (.scalar as[i]) := by
  have he := (evaluable_ok w offset _).2 ⟨hc, rfl⟩
  refine ⟨List.zipWith (fun x y => computeWcsArea w.isCelestial
    (fun x y => w.fwd (x + offset) (y + offset)) cosd x y 1) xs ys, ?_, ?_, ?_⟩
  · simp [WcsObj.pixelArea, Arg.ndim, he, bind, Except.bind, broadcast, Arg.flat, hlen, pure, Except.pure]
  · simp [hlen]
  · intro i hx hy ha
    simp [WcsObj.pixelArea, Arg.ndim, he, bind, Except.bind, broadcast, Arg.flat, pure, Except.pure]

/-- **C108, refusals.**  Arrays with more dimensions and mixtures of scalars and arrays are AssertionErrors;
Jacobians are for one position only; a WCS of another class is a ValueError. -/
theorem C108_refuses (w : WcsObj) (cosd : ℚ → ℚ) (offset : ℚ) (x y : Arg) :
    ((x.ndim > 1 ∨ y.ndim > 1 ∨ x.ndim ≠ y.ndim) →
      w.pixelArea cosd offset x y = .error .assertionError) ∧
    ((x.ndim ≠ 0 ∨ y.ndim ≠ 0) → w.jacobianAt offset x y = .error .assertionError) ∧
    (x.ndim ≤ 1 → x.ndim = y.ndim → w.cls = .other → w.pixelArea cosd offset x y = .error .valueError) ∧
    (x.ndim = 0 → y.ndim = 0 → w.cls = .other → w.jacobianAt offset x y = .error .valueError) := by
  refine ⟨?_, ?_, ?_, ?_⟩
  · intro h
    unfold WcsObj.pixelArea
    by_cases h1 : x.ndim ≤ 1 ∧ y.ndim ≤ 1
    · simp only [h1, not_true_eq_false, if_false, and_self]
      rw [if_pos (by omega)]
    · simp only [h1, not_false_eq_true, if_true]
  · intro h
    rcases x with x | x | _ <;> rcases y with y | y | _ <;> simp_all [WcsObj.jacobianAt, Arg.ndim]
  · intro h1 h2 hc
    unfold WcsObj.pixelArea
    have h3 : y.ndim ≤ 1 := h2 ▸ h1
    simp [h2, h3, WcsObj.evaluable, hc, bind, Except.bind]
  · intro h1 h2 hc
    rcases x with x | x | _ <;> rcases y with y | y | _ <;> simp_all [WcsObj.jacobianAt, Arg.ndim]

/-! ### examples -/

/-- A world with one PIFF file, whose WCS is distorted. -/
def exSEDisk : SEDisk Nat where
  imageWcs _ _ := .error .ioError
  headWcs _ _ _ := .error .ioError
  piff _ n := .ok (n.toNat, ⟨.galsimCelestial, fun x y => (x + y * y, y), fun u v => (u - v * v, v),
    fun _ y => (1, 2 * y, 0, 1)⟩)
  psfex _ := .error .ioError
  header _ _ := .ok fun k => if k = "naxis1" then some 2048 else if k = "naxis2" then some 4096 else none
  skyBounds s f _ := .ok (⟨0, 1, 0, 1⟩, f s.1 s.2)

def exSESource : SESource Nat :=
  ⟨some "i".toList, some "sci".toList, none, none, some "p".toList, some 7, none, none, none⟩

example : ∃ r, (seInit exSEDisk exSESource 1 (.named "pixmappy") (.named "piff")).out = .ok r ∧
    r.psf = 7 ∧ r.shape = (4096, 2048) ∧ r.celestial = true := by
  refine ⟨_, rfl, rfl, rfl, rfl⟩

example : ∀ w, ¬ WcsRequested exSEDisk exSESource w (.named "image") := by
  intro w h
  simp [WcsRequested, exSEDisk] at h

example : (seInit exSEDisk exSESource 1 (.named "image") (.named "piff")).out = .error .ioError := rfl

example : ∃ a j, (WcsObj.ofEsutil (fun x y => (x * x / 3600, y / 3600)) (fun x y => (x, y)) (fun _ => 1)).pixelArea (fun _ => 1) 1
      (.scalar 4) (.scalar 5) = .ok (.scalar a) ∧
    (WcsObj.ofEsutil (fun x y => (x * x / 3600, y / 3600)) (fun x y => (x, y)) (fun _ => 1)).jacobianAt 1 (.scalar 4) (.scalar 5) =
      .ok j ∧ a = |jacDet j| :=
  C108_esutil _ _ _ 1 4 5

/-- `C108_differences` for a sky that wraps between the two pixels. -/
example := C108_differences (fun x y => (if x < 5 then 359 + x / 10 else x / 10 - 1, y / 3600)) (fun x y => (x, y)) (fun _ => 1) 1 4 5
  _ fun _ _ => rfl

/-- `C107_celestial`, `C107_one_piff` and `C107_reads` on a source with a piff model. -/
example : ∃ r, (seInit exSEDisk exSESource 1 (.named "pixmappy") (.named "piff")).out = .ok r ∧
    r.celestial = r.wcs.isCelestial ∧
    (∃ p n, exSESource.piffPath = some p ∧ exSESource.ccdnum = some n ∧
      exSEDisk.piff p n = .ok (r.psf, r.wcs)) ∧
    ∀ rd ∈ (seInit exSEDisk exSESource 1 (.named "pixmappy") (.named "piff")).log,
      WcsReadOf exSESource rd (.named "pixmappy") ∨ PsfReadOf exSESource rd (.named "piff") ∨
        ShapeReadOf exSESource rd :=
  ⟨_, rfl, C107_celestial exSEDisk exSESource 1 (.named "pixmappy") (.named "piff") _ rfl,
    C107_one_piff exSEDisk exSESource 1 _ rfl,
    fun rd h => C107_reads exSEDisk exSESource 1 _ _ rd h⟩

/-- `C107_psf_errors`: the PSFEx file is not named. -/
example := (C107_psf_errors exSEDisk exSESource 1 (.named "pixmappy") _
  (Or.inr (Or.inr (Or.inr ⟨rfl, _, _, _, rfl, rfl, rfl⟩))) "psfex").2.2.1 rfl rfl

/-- `C107_euclidean_refused` for a WCS object of neither kind. -/
example := (C107_euclidean_refused exSEDisk exSESource 1 (.object ⟨.other, fun x y => (x, y),
    fun x y => (x, y), fun _ _ => (1, 0, 0, 1)⟩) (.object 5) _ 5 4096 2048 rfl rfl
  (Or.inr ⟨rfl, _, _, _, rfl, rfl, rfl, Or.inr ⟨rfl, rfl, rfl⟩⟩) (by norm_num) (by norm_num)).2 rfl

/-- `C108_arrays` on three positions of a WCS with changing pixel areas. -/
example := C108_arrays (WcsObj.ofEsutil (fun x y => (x * x / 3600, y / 3600)) (fun x y => (x, y))
  (fun _ => 1)) (fun _ => 1) 1 [4, 5, 1/2] [0, -1, 7] rfl (Or.inr (Or.inl rfl))

end Pizza
