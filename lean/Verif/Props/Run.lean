import Verif.Props.Layout
import Verif.Props.Schedule

/-!
C60 (schedule independence), C61 (failures surface, no deadlock), C88 (slices do not depend on the
others processed).
-/

namespace Pizza

variable {V E : Type}

/-- The standing assumptions on the computation of a slice: a result is that of the slice asked for and
can be stored. -/
def GoodCompute (c : RunShape V) (compute : Nat → Nat → Except Err (SliceRes V E))
    (jobs : List (Nat × Nat)) : Prop :=
  ∀ j ∈ jobs, ∀ r, compute j.1 j.2 = .ok r → r.i = j.1 ∧ GoodRes c.ops c.n c.npix c.npixPsf c.nExtra r

/-- The message a worker sends for a job. -/
def answer (compute : Nat → Nat → Except Err (SliceRes V E)) (j : Nat × Nat) : Except Err (SliceRes V E) :=
  match compute j.1 j.2 with
  | .ok r => .ok r
  | .error _ => .error .runtimeError

/-- The invariant of the parallel run: the jobs received, those in the queue, in work and pending are
different jobs of the run; as long as no error message is on its way they are all of them. -/
structure Inv (c : RunShape V) (compute : Nat → Nat → Except Err (SliceRes V E)) (rows0 : List RunRow)
    (jobs : List (Nat × Nat)) (gj qj : List (Nat × Nat)) (rs : List (SliceRes V E)) (s : PState V E) : Prop where
  queue : s.queue = qj.map (answer compute)
  results : gj.map (fun j => compute j.1 j.2) = rs.map .ok
  holds : Holds c.ops c.n c.npix c.npixPsf c.reserved rows0 rs s.out
  got : s.got = gj.length
  sub : (gj ++ qj ++ s.working.flatten ++ s.pending.flatten).Subperm jobs
  all : (∃ j ∈ qj, ∃ e, compute j.1 j.2 = .error e) ∨
    (gj ++ qj ++ s.working.flatten ++ s.pending.flatten).Perm jobs

theorem answer_ok {compute : Nat → Nat → Except Err (SliceRes V E)} {j : Nat × Nat} {r : SliceRes V E}
    (h : answer compute j = .ok r) : compute j.1 j.2 = .ok r := by
  unfold answer at h
  split at h
  · rename_i h'; rw [h', ← h]
  · cases h

theorem answer_error {compute : Nat → Nat → Except Err (SliceRes V E)} {j : Nat × Nat} {e : Err}
    (h : answer compute j = .error e) : e = .runtimeError ∧ ∃ e', compute j.1 j.2 = .error e' := by
  unfold answer at h
  split at h
  · cases h
  · rename_i e' h'; cases h; exact ⟨rfl, e', h'⟩

theorem results_good {c : RunShape V} {compute : Nat → Nat → Except Err (SliceRes V E)}
    {jobs gj : List (Nat × Nat)} {rs : List (SliceRes V E)} (hc : GoodCompute c compute jobs)
    (hr : gj.map (fun j => compute j.1 j.2) = rs.map .ok) (hs : ∀ j ∈ gj, j ∈ jobs) :
    (∀ r ∈ rs, GoodRes c.ops c.n c.npix c.npixPsf c.nExtra r) ∧ rs.map SliceRes.i = gj.map Prod.fst := by
  induction gj generalizing rs with
  | nil =>
    cases rs with
    | nil => simp
    | cons r l => simp at hr
  | cons j gj ih =>
    cases rs with
    | nil => simp at hr
    | cons r l =>
      simp only [List.map_cons, List.cons.injEq] at hr
      obtain ⟨i1, i2⟩ := ih hr.2 fun j hj => hs j (by simp [hj])
      obtain ⟨a1, a2⟩ := hc j (hs j (by simp)) r hr.1
      refine ⟨?_, by simp [a1, i2]⟩
      intro x hx
      rcases List.mem_cons.1 hx with rfl | hx
      · exact a2
      · exact i1 x hx

theorem inv_init (c : RunShape V) (compute : Nat → Nat → Except Err (SliceRes V E)) (rows0 : List RunRow)
    (chunks : List (List (Nat × Nat))) :
    Inv c compute rows0 chunks.flatten [] [] [] (PState.init chunks ⟨c.reserved, rows0, []⟩) :=
  ⟨rfl, rfl, holds_init c rows0, rfl, by simp [PState.init, List.Subperm.refl], .inr (by simp [PState.init])⟩

/-- The invariant is kept while the parent is running; how it can end. -/
theorem inv_step {c : RunShape V} {compute : Nat → Nat → Except Err (SliceRes V E)} {rows0 : List RunRow}
    {jobs gj qj : List (Nat × Nat)} {rs : List (SliceRes V E)} {n nJobs cap : Nat} {s t : PState V E}
    (hrows : rows0.length = c.n) (hc : GoodCompute c compute jobs) (hnd : (jobs.map Prod.fst).Nodup)
    (hi : Inv c compute rows0 jobs gj qj rs s) (hst : Step c compute n nJobs cap s t) :
    (t.status = .running → ∃ gj' qj' rs', Inv c compute rows0 jobs gj' qj' rs' t) ∧
    (∀ e, t.status = .raised e → e = .runtimeError ∧ ∃ j ∈ jobs, ∃ e', compute j.1 j.2 = .error e') ∧
    (t.status = .done → t.out = s.out ∧ gj.length = n ∧ s.status = .running) := by
  obtain ⟨i1, i2, i3, i4, i5, i6⟩ := hi
  cases hst with
  | start ch p1 p2 w q o g hlt =>
    refine ⟨fun _ => ⟨gj, qj, rs, i1, i2, i3, i4, ?_, ?_⟩, by simp, by simp⟩
    all_goals
      have hp : (gj ++ qj ++ (ch :: w).flatten ++ (p1 ++ p2).flatten).Perm
          (gj ++ qj ++ w.flatten ++ (p1 ++ ch :: p2).flatten) := by
        simp only [List.flatten_cons, List.flatten_append, List.append_assoc]
        apply List.Perm.append_left
        apply List.Perm.append_left
        rw [← List.append_assoc ch, ← List.append_assoc w.flatten]
        refine (List.Perm.append_right _ List.perm_append_comm).trans ?_
        rw [List.append_assoc, List.append_assoc]
        apply List.Perm.append_left
        rw [← List.append_assoc, ← List.append_assoc]
        exact List.Perm.append_right _ List.perm_append_comm
    · exact hp.subperm.trans i5
    · rcases i6 with h | h
      · exact .inl h
      · exact .inr (hp.trans h)
  | work p w1 j js w2 q o g r hq hr =>
    have hp : (gj ++ (j :: qj) ++ (w1 ++ js :: w2).flatten ++ p.flatten).Perm
        (gj ++ qj ++ (w1 ++ (j :: js) :: w2).flatten ++ p.flatten) := by
      apply List.Perm.append_right
      simp only [List.flatten_append, List.flatten_cons, List.append_assoc, List.cons_append]
      apply List.Perm.append_left
      refine List.perm_middle.symm.trans ?_
      apply List.Perm.append_left
      exact List.perm_middle.symm
    refine ⟨fun _ => ⟨gj, j :: qj, rs, ?_, i2, i3, i4, hp.subperm.trans i5, ?_⟩, by simp, by simp⟩
    · simp only at i1
      simp [i1, answer, hr]
    · rcases i6 with ⟨k, hk, e⟩ | h
      · exact .inl ⟨k, by simp [hk], e⟩
      · exact .inr (hp.trans h)
  | fail p w1 j js w2 q o g e hq hr =>
    have hp : (gj ++ (j :: qj) ++ (w1 ++ w2).flatten ++ p.flatten).Subperm
        (gj ++ qj ++ (w1 ++ (j :: js) :: w2).flatten ++ p.flatten) := by
      refine (List.subperm_append_right _).2 ?_
      simp only [List.flatten_append, List.flatten_cons, List.append_assoc, List.cons_append]
      refine (List.subperm_append_left _).2 ?_
      have h1 : (j :: (qj ++ (w1.flatten ++ w2.flatten))).Perm (qj ++ (w1.flatten ++ j :: w2.flatten)) := by
        refine List.perm_middle.symm.trans ?_
        apply List.Perm.append_left
        exact List.perm_middle.symm
      refine h1.subperm.trans ?_
      refine (List.subperm_append_left _).2 ?_
      refine (List.subperm_append_left _).2 ?_
      apply List.Sublist.subperm
      apply List.Sublist.cons_cons
      exact List.sublist_append_right _ _
    refine ⟨fun _ => ⟨gj, j :: qj, rs, ?_, i2, i3, i4, hp.trans i5, .inl ⟨j, by simp, e, hr⟩⟩, by simp, by simp⟩
    simp only at i1
    simp [i1, answer, hr]
  | finish p w1 w2 q o g =>
    refine ⟨fun _ => ⟨gj, qj, rs, i1, i2, i3, i4, ?_, ?_⟩, by simp, by simp⟩
    · simpa using i5
    · simpa using i6
  | get p w q1 r q2 o o' g hg hpr =>
    refine ⟨fun _ => ?_, by simp, by simp⟩
    simp only at i1
    obtain ⟨a, b, rfl, ha, hb⟩ := List.map_eq_append_iff.1 i1.symm
    obtain ⟨j, b', rfl, hj, hb'⟩ := List.map_eq_cons_iff.1 hb
    have hjr := answer_ok hj
    have hp : ((gj ++ [j]) ++ (a ++ b') ++ w.flatten ++ p.flatten).Perm
        (gj ++ (a ++ j :: b') ++ w.flatten ++ p.flatten) := by
      apply List.Perm.append_right
      apply List.Perm.append_right
      rw [List.append_assoc]
      apply List.Perm.append_left
      show (j :: (a ++ b')).Perm _
      exact List.perm_middle.symm
    have hsub := hp.subperm.trans i5
    have hmem : ∀ k ∈ gj ++ [j], k ∈ jobs := by
      intro k hk
      exact hsub.subset (by simp only [List.mem_append] at hk ⊢; tauto)
    have hres : (gj ++ [j]).map (fun j => compute j.1 j.2) = (rs ++ [r]).map .ok := by
      simp [i2, hjr]
    obtain ⟨g1, g2⟩ := results_good hc hres hmem
    have hids : ((rs ++ [r]).map SliceRes.i).Nodup := by
      rw [g2]
      have : (gj ++ [j]).Subperm jobs := by
        refine List.Subperm.trans ?_ hsub
        apply List.Sublist.subperm
        rw [List.append_assoc, List.append_assoc]
        exact List.sublist_append_left _ _
      obtain ⟨l, hl, hl'⟩ := this
      exact (hl.map Prod.fst).nodup_iff.1 (hnd.sublist (hl'.map Prod.fst))
    obtain ⟨o2, p1, p2⟩ := process_holds c rows0 hrows rs o r i3 (fun d hd => g1 d (by simp [hd]))
      (g1 r (by simp)) (by
        intro d hd he
        rw [List.map_append, List.nodup_append] at hids
        exact hids.2.2 _ (List.mem_map_of_mem hd) _ (by simp) he)
    rw [hpr] at p1
    have p1 := Except.ok.inj p1
    subst p1
    refine ⟨gj ++ [j], a ++ b', rs ++ [r], by simp [ha, hb'], hres, p2, ?_, hsub, ?_⟩
    · simp only at i4; simp [i4]
    · rcases i6 with ⟨k, hk, e, he⟩ | h
      · left
        rcases List.mem_append.1 hk with hk | hk
        · exact ⟨k, by simp [hk], e, he⟩
        · rcases List.mem_cons.1 hk with rfl | hk
          · rw [hjr] at he; cases he
          · exact ⟨k, by simp [hk], e, he⟩
      · exact .inr (hp.trans h)
  | getBad p w q1 r q2 o g e hg hpr =>
    exfalso
    simp only at i1
    obtain ⟨a, b, rfl, ha, hb⟩ := List.map_eq_append_iff.1 i1.symm
    obtain ⟨j, b', rfl, hj, hb'⟩ := List.map_eq_cons_iff.1 hb
    have hjr := answer_ok hj
    have hp : ((gj ++ [j]) ++ (a ++ b') ++ w.flatten ++ p.flatten).Perm
        (gj ++ (a ++ j :: b') ++ w.flatten ++ p.flatten) := by
      apply List.Perm.append_right
      apply List.Perm.append_right
      rw [List.append_assoc]
      apply List.Perm.append_left
      show (j :: (a ++ b')).Perm _
      exact List.perm_middle.symm
    have hsub := hp.subperm.trans i5
    have hmem : ∀ k ∈ gj ++ [j], k ∈ jobs := by
      intro k hk
      exact hsub.subset (by simp only [List.mem_append] at hk ⊢; tauto)
    have hres : (gj ++ [j]).map (fun j => compute j.1 j.2) = (rs ++ [r]).map .ok := by
      simp [i2, hjr]
    obtain ⟨g1, g2⟩ := results_good hc hres hmem
    have hids : ((rs ++ [r]).map SliceRes.i).Nodup := by
      rw [g2]
      have : (gj ++ [j]).Subperm jobs := by
        refine List.Subperm.trans ?_ hsub
        apply List.Sublist.subperm
        rw [List.append_assoc, List.append_assoc]
        exact List.sublist_append_left _ _
      obtain ⟨l, hl, hl'⟩ := this
      exact (hl.map Prod.fst).nodup_iff.1 (hnd.sublist (hl'.map Prod.fst))
    obtain ⟨o2, p1, p2⟩ := process_holds c rows0 hrows rs o r i3 (fun d hd => g1 d (by simp [hd]))
      (g1 r (by simp)) (by
        intro d hd he
        rw [List.map_append, List.nodup_append] at hids
        exact hids.2.2 _ (List.mem_map_of_mem hd) _ (by simp) he)
    rw [hpr] at p1
    cases p1
  | getError p w q1 e q2 o g hg =>
    refine ⟨by simp, ?_, by simp⟩
    intro e' he'
    simp only at he' i1
    cases he'
    obtain ⟨a, b, rfl, ha, hb⟩ := List.map_eq_append_iff.1 i1.symm
    obtain ⟨j, b', rfl, hj, hb'⟩ := List.map_eq_cons_iff.1 hb
    obtain ⟨h1, h2⟩ := answer_error hj
    refine ⟨h1, j, i5.subset ?_, h2⟩
    simp
  | join q o =>
    refine ⟨by simp, by simp, fun _ => ⟨rfl, ?_, rfl⟩⟩
    simpa using i4.symm

theorem step_running {c : RunShape V} {compute : Nat → Nat → Except Err (SliceRes V E)} {n nJobs cap : Nat}
    {s t : PState V E} (h : Step c compute n nJobs cap s t) : s.status = .running := by
  cases h <;> rfl

theorem run_inv {c : RunShape V} {compute : Nat → Nat → Except Err (SliceRes V E)} {rows0 : List RunRow}
    {chunks : List (List (Nat × Nat))} {nJobs cap k : Nat} {s : PState V E}
    (hrows : rows0.length = c.n) (hc : GoodCompute c compute chunks.flatten)
    (hnd : (chunks.flatten.map Prod.fst).Nodup)
    (h : Steps c compute chunks.flatten.length nJobs cap k (PState.init chunks ⟨c.reserved, rows0, []⟩) s) :
    (s.status = .running → ∃ gj qj rs, Inv c compute rows0 chunks.flatten gj qj rs s) ∧
    (∀ e, s.status = .raised e → e = .runtimeError ∧
      ∃ j ∈ chunks.flatten, ∃ e', compute j.1 j.2 = .error e') ∧
    (s.status = .done → ∃ (gj : List (Nat × Nat)) (rs : List (SliceRes V E)), gj.Perm chunks.flatten ∧ gj.map (fun j => compute j.1 j.2) = rs.map .ok ∧
      Holds c.ops c.n c.npix c.npixPsf c.reserved rows0 rs s.out) := by
  generalize hs0 : PState.init chunks ⟨c.reserved, rows0, []⟩ = s0 at h
  induction h with
  | refl s =>
    subst hs0
    exact ⟨fun _ => ⟨[], [], [], inv_init c compute rows0 chunks⟩, by simp [PState.init], by simp [PState.init]⟩
  | tail h hst ih =>
    obtain ⟨i1, _, _⟩ := ih hs0
    obtain ⟨gj, qj, rs, hi⟩ := i1 (step_running hst)
    obtain ⟨a1, a2, a3⟩ := inv_step hrows hc hnd hi hst
    refine ⟨a1, a2, fun hd => ?_⟩
    obtain ⟨b1, b2, _⟩ := a3 hd
    refine ⟨gj, rs, ?_, hi.results, by rw [b1]; exact hi.holds⟩
    refine List.Subperm.perm_of_length_le ?_ b2.ge
    refine List.Subperm.trans ?_ hi.sub
    apply List.Sublist.subperm
    rw [List.append_assoc, List.append_assoc]
    exact List.sublist_append_left _ _

/-- The sequential run when every slice can be computed. -/
theorem runSeq_eq {c : RunShape V} {compute : Nat → Nat → Except Err (SliceRes V E)}
    {jobs : List (Nat × Nat)} {rs : List (SliceRes V E)} (o : Out V E)
    (h : jobs.map (fun j => compute j.1 j.2) = rs.map .ok) :
    runSeq c compute o jobs = processAllResults c o rs := by
  induction jobs generalizing rs o with
  | nil =>
    cases rs with
    | nil => rfl
    | cons r l => simp at h
  | cons j jobs ih =>
    cases rs with
    | nil => simp at h
    | cons r l =>
      simp only [List.map_cons, List.cons.injEq] at h
      unfold runSeq processAllResults
      rw [h.1]
      show (processResults c.ops c.npix c.npixPsf o r >>= fun o => runSeq c compute o jobs) = _
      congr 1
      funext o'
      exact ih o' h.2

theorem runSeq_ok_inv {c : RunShape V} {compute : Nat → Nat → Except Err (SliceRes V E)}
    {jobs : List (Nat × Nat)} {o o' : Out V E} (h : runSeq c compute o jobs = .ok o') :
    ∃ rs : List (SliceRes V E), jobs.map (fun j => compute j.1 j.2) = rs.map .ok := by
  induction jobs generalizing o with
  | nil => exact ⟨[], rfl⟩
  | cons j jobs ih =>
    unfold runSeq at h
    obtain ⟨r, h1, h2⟩ := bind_eq_ok.1 h
    obtain ⟨o1, h3, h4⟩ := bind_eq_ok.1 h2
    obtain ⟨rs, hrs⟩ := ih h4
    exact ⟨r :: rs, by simp [h1, hrs]⟩

theorem runSeq_holds {c : RunShape V} {compute : Nat → Nat → Except Err (SliceRes V E)} {rows0 : List RunRow}
    {jobs : List (Nat × Nat)} {rs : List (SliceRes V E)} (hrows : rows0.length = c.n)
    (hc : GoodCompute c compute jobs) (hnd : (jobs.map Prod.fst).Nodup)
    (h : jobs.map (fun j => compute j.1 j.2) = rs.map .ok) :
    ∃ o, runSeq c compute ⟨c.reserved, rows0, []⟩ jobs = .ok o ∧
      Holds c.ops c.n c.npix c.npixPsf c.reserved rows0 rs o ∧
      ∀ r ∈ rs, GoodRes c.ops c.n c.npix c.npixPsf c.nExtra r := by
  obtain ⟨g1, g2⟩ := results_good hc h fun _ hj => hj
  rw [runSeq_eq _ h]
  obtain ⟨o, h1, h2⟩ := processAll_holds c rows0 hrows rs [] _ (holds_init c rows0) (by simpa using g1)
    (by simpa [g2] using hnd)
  exact ⟨o, h1, by simpa using h2, g1⟩

theorem perm_results {compute : Nat → Nat → Except Err (SliceRes V E)} {gj jobs : List (Nat × Nat)}
    {rs : List (SliceRes V E)} (hp : gj.Perm jobs)
    (h : gj.map (fun j => compute j.1 j.2) = rs.map .ok) :
    ∃ rs', jobs.map (fun j => compute j.1 j.2) = rs'.map .ok ∧ rs.Perm rs' := by
  have h1 : (jobs.map fun j => compute j.1 j.2).Perm (rs.map Except.ok) := by
    rw [← h]; exact (hp.map _).symm
  have h2 : ∀ (l : List (Except Err (SliceRes V E))) (rs : List (SliceRes V E)), l.Perm (rs.map .ok) →
      ∃ rs', l = rs'.map .ok ∧ rs.Perm rs' := by
    intro l rs hl
    have hall : ∀ x ∈ l, ∃ r, x = .ok r := by
      intro x hx
      obtain ⟨r, _, rfl⟩ := List.mem_map.1 (hl.subset hx)
      exact ⟨r, rfl⟩
    have hex : ∃ rs' : List (SliceRes V E), l = rs'.map .ok := by
      clear hl
      induction l with
      | nil => exact ⟨[], rfl⟩
      | cons x l ih =>
        obtain ⟨rs', h⟩ := ih fun y hy => hall y (by simp [hy])
        obtain ⟨r, rfl⟩ := hall x (by simp)
        exact ⟨r :: rs', by rw [List.map_cons, ← h]⟩
    obtain ⟨rs', rfl⟩ := hex
    exact ⟨rs', rfl, ((List.map_perm_map_iff fun a b h => Except.ok.inj h).1 hl).symm⟩
  exact h2 _ _ h1

/-- The jobs of a run: every slice to do with its seed. -/
def jobsOf (seeds slices : List Nat) : List (Nat × Nat) := slices.map fun i => (i, seeds.getD i 0)

theorem jobsOf_fst (seeds slices : List Nat) : (jobsOf seeds slices).map Prod.fst = slices := by
  unfold jobsOf; rw [List.map_map]; exact List.map_id slices

theorem reserved_of {c : RunShape V} {fits : List (Hdu V)}
    (hf : reserveImages c.ops c.pars (c.n * c.npix) (c.n * c.npixPsf) c.nExtra c.npix c.npixPsf = .ok fits) :
    fits = c.reserved := by
  rw [reserveImages_ok] at hf
  exact (Except.ok.inj hf).symm

theorem chunks_of {slices seeds : List Nat} {nChunks : Nat} {chunks : List (List (Nat × Nat))}
    (h : allChunks slices seeds nChunks = .ok chunks) :
    chunks.flatten = jobsOf seeds slices ∧ chunks.length = nChunks := by
  have hc : 1 ≤ nChunks := by
    by_contra hc
    have : nChunks = 0 := by omega
    subst this
    cases h
  obtain ⟨jobs, h1, h2, h3⟩ := C59_partition slices seeds nChunks hc
  rw [h] at h1
  have h1 := Except.ok.inj h1
  subst h1
  exact ⟨h3, h2⟩

/-- C60: whatever the number of workers and chunks, the size of the queue and the schedule, a parallel
run that returns has written what the sequential run writes: the same extensions, the same rows of
object data, and the same epochs up to order. -/
theorem C60_parallel (c : RunShape V) (compute : Nat → Nat → Except Err (SliceRes V E))
    (rows0 : List RunRow) (hrows : rows0.length = c.n) (fits : List (Hdu V))
    (hf : reserveImages c.ops c.pars (c.n * c.npix) (c.n * c.npixPsf) c.nExtra c.npix c.npixPsf = .ok fits)
    (slices seeds : List Nat) (hs : slices.Nodup) (hc : GoodCompute c compute (jobsOf seeds slices))
    (nChunks nJobs cap k : Nat) (chunks : List (List (Nat × Nat)))
    (hch : allChunks slices seeds nChunks = .ok chunks) (s : PState V E)
    (hrun : Steps c compute slices.length nJobs cap k (PState.init chunks ⟨fits, rows0, []⟩) s)
    (hd : s.status = .done) :
    ∃ o, runSeq c compute ⟨fits, rows0, []⟩ (jobsOf seeds slices) = .ok o ∧
      s.out.fits = o.fits ∧ s.out.rows = o.rows ∧ s.out.epochs.Perm o.epochs := by
  obtain ⟨h1, _⟩ := chunks_of hch
  have hfits := reserved_of hf
  subst hfits
  have hl : slices.length = chunks.flatten.length := by rw [h1, jobsOf, List.length_map]
  rw [hl] at hrun
  rw [← h1] at hc ⊢
  have hnd : (chunks.flatten.map Prod.fst).Nodup := by rw [h1, jobsOf_fst]; exact hs
  obtain ⟨gj, rs, g1, g2, g3⟩ := (run_inv hrows hc hnd hrun).2.2 hd
  obtain ⟨rs', p1, p2⟩ := perm_results g1 g2
  obtain ⟨o, o1, o2, o3⟩ := runSeq_holds hrows hc hnd p1
  refine ⟨o, o1, ?_⟩
  exact holds_unique c rows0 hrows rs rs' p2 (fun d hd => o3 d (p2.subset hd)) _ _ g3 o2

/-- C60: the sequential run does not depend on the order of the slices either (but for the order of the
epochs). -/
theorem C60_order (c : RunShape V) (compute : Nat → Nat → Except Err (SliceRes V E))
    (rows0 : List RunRow) (hrows : rows0.length = c.n) (fits : List (Hdu V))
    (hf : reserveImages c.ops c.pars (c.n * c.npix) (c.n * c.npixPsf) c.nExtra c.npix c.npixPsf = .ok fits)
    (slices slices' seeds : List Nat) (hs : slices.Nodup) (hp : slices.Perm slices')
    (hc : GoodCompute c compute (jobsOf seeds slices)) (o : Out V E)
    (h : runSeq c compute ⟨fits, rows0, []⟩ (jobsOf seeds slices) = .ok o) :
    ∃ o', runSeq c compute ⟨fits, rows0, []⟩ (jobsOf seeds slices') = .ok o' ∧
      o.fits = o'.fits ∧ o.rows = o'.rows ∧ o.epochs.Perm o'.epochs := by
  have hfits := reserved_of hf
  subst hfits
  obtain ⟨rs, hrs⟩ := runSeq_ok_inv h
  have hpj : (jobsOf seeds slices).Perm (jobsOf seeds slices') := hp.map _
  obtain ⟨rs', p1, p2⟩ := perm_results hpj hrs
  obtain ⟨o1, a1, a2, a3⟩ := runSeq_holds hrows hc (by rw [jobsOf_fst]; exact hs) hrs
  rw [h] at a1
  have a1 := Except.ok.inj a1
  subst a1
  obtain ⟨o2, b1, b2, _⟩ := runSeq_holds hrows (jobs := jobsOf seeds slices')
    (fun j hj => hc j (hpj.symm.subset hj)) (by rw [jobsOf_fst]; exact hp.nodup_iff.1 hs) p1
  exact ⟨o2, b1, holds_unique c rows0 hrows rs rs' p2 a3 _ _ a2 b2⟩

theorem exists_step {c : RunShape V} {compute : Nat → Nat → Except Err (SliceRes V E)} {rows0 : List RunRow}
    {jobs gj qj : List (Nat × Nat)} {rs : List (SliceRes V E)} {nJobs cap : Nat} {s : PState V E}
    (hj : 1 ≤ nJobs) (hcap : 1 ≤ cap) (hr : s.status = .running)
    (hi : Inv c compute rows0 jobs gj qj rs s) : ∃ t, Step c compute jobs.length nJobs cap s t := by
  obtain ⟨p, w, q, o, g, st⟩ := s
  simp only at hr
  subst hr
  obtain ⟨i1, i2, i3, i4, i5, i6⟩ := hi
  simp only at i1 i4 i5 i6
  have hlen := i5.length_le
  have hget : q ≠ [] → ∃ t, Step c compute jobs.length nJobs cap ⟨p, w, q, o, g, .running⟩ t := by
    intro hq
    cases qj with
    | nil => exact absurd i1 (by simpa using hq)
    | cons j qj =>
      have hg : g < jobs.length := by simp at hlen; omega
      cases q with
      | nil => exact absurd rfl hq
      | cons m q =>
        cases m with
        | error e => exact ⟨_, .getError p w [] e q o g hg⟩
        | ok r =>
          cases hp : processResults c.ops c.npix c.npixPsf o r with
          | error e => exact ⟨_, .getBad p w [] r q o g e hg hp⟩
          | ok o' => exact ⟨_, .get p w [] r q o o' g hg hp⟩
  cases w with
  | nil =>
    cases p with
    | cons ch p => exact ⟨_, .start ch [] p [] q o g (by simp; omega)⟩
    | nil =>
      by_cases hq : q = []
      · subst hq
        have hqj : qj = [] := by simpa using i1.symm
        subst hqj
        rcases i6 with ⟨j, hj, _⟩ | h
        · cases hj
        · have := h.length_eq
          simp at this
          rw [this] at i4
          subst i4
          exact ⟨_, .join [] o⟩
      · exact hget hq
  | cons ch w =>
    cases ch with
    | nil => exact ⟨_, .finish p [] w q o g⟩
    | cons j js =>
      by_cases hq : q.length < cap
      · cases hcmp : compute j.1 j.2 with
        | ok r => exact ⟨_, .work p [] j js w q o g r hq hcmp⟩
        | error e => exact ⟨_, .fail p [] j js w q o g e hq hcmp⟩
      · apply hget
        rintro rfl
        simp at hq; omega

/-- C61: no reachable state is stuck while the parent is still waiting. -/
theorem C61_progress (c : RunShape V) (compute : Nat → Nat → Except Err (SliceRes V E))
    (rows0 : List RunRow) (hrows : rows0.length = c.n) (fits : List (Hdu V))
    (hf : reserveImages c.ops c.pars (c.n * c.npix) (c.n * c.npixPsf) c.nExtra c.npix c.npixPsf = .ok fits)
    (slices seeds : List Nat) (hs : slices.Nodup) (hc : GoodCompute c compute (jobsOf seeds slices))
    (nChunks nJobs cap k : Nat) (hj : 1 ≤ nJobs) (hcap : 1 ≤ cap) (chunks : List (List (Nat × Nat)))
    (hch : allChunks slices seeds nChunks = .ok chunks) (s : PState V E)
    (hrun : Steps c compute slices.length nJobs cap k (PState.init chunks ⟨fits, rows0, []⟩) s)
    (hr : s.status = .running) : ∃ t, Step c compute slices.length nJobs cap s t := by
  obtain ⟨h1, _⟩ := chunks_of hch
  have hfits := reserved_of hf
  subst hfits
  have hl : slices.length = chunks.flatten.length := by rw [h1, jobsOf, List.length_map]
  rw [hl] at hrun ⊢
  rw [← h1] at hc
  have hnd : (chunks.flatten.map Prod.fst).Nodup := by rw [h1, jobsOf_fst]; exact hs
  obtain ⟨gj, qj, rs, hi⟩ := (run_inv hrows hc hnd hrun).1 hr
  exact exists_step hj hcap hr hi

/-- What is left to be done in a state. -/
def PState.left (s : PState V E) : Nat :=
  2 * s.pending.flatten.length + 2 * s.working.flatten.length + 2 * s.pending.length + s.working.length +
    s.queue.length + (match s.status with | .running => 1 | _ => 0)

theorem left_step {c : RunShape V} {compute : Nat → Nat → Except Err (SliceRes V E)} {n nJobs cap : Nat}
    {s t : PState V E} (h : Step c compute n nJobs cap s t) : t.left < s.left := by
  cases h <;> simp only [PState.left, List.length_append, List.flatten_append, List.flatten_cons,
    List.length_cons, List.flatten_nil, List.length_nil] <;> omega

/-- C61: every run ends: it has at most two steps per slice and two per chunk, and one more. -/
theorem C61_terminates (c : RunShape V) (compute : Nat → Nat → Except Err (SliceRes V E))
    (o : Out V E) (slices seeds : List Nat) (nChunks n nJobs cap k : Nat) (chunks : List (List (Nat × Nat)))
    (hch : allChunks slices seeds nChunks = .ok chunks) (s : PState V E)
    (hrun : Steps c compute n nJobs cap k (PState.init chunks o) s) :
    k ≤ 2 * slices.length + 2 * nChunks + 1 := by
  obtain ⟨h1, h2⟩ := chunks_of hch
  have key : ∀ k s, Steps c compute n nJobs cap k (PState.init chunks o) s →
      k + s.left ≤ (PState.init chunks o).left := by
    intro k s hk
    generalize PState.init chunks o = s0 at hk
    induction hk with
    | refl => simp
    | tail _ hst ih => have := left_step hst; omega
  have := key k s hrun
  have hl : (PState.init chunks o).left = 2 * slices.length + 2 * nChunks + 1 := by
    simp [PState.left, PState.init, h1, h2, jobsOf]
  omega

/-- C61: a complete run ends with a normal return exactly if every slice can be computed, and otherwise
with the RuntimeError of a worker raised in the parent. -/
theorem C61_outcome (c : RunShape V) (compute : Nat → Nat → Except Err (SliceRes V E))
    (rows0 : List RunRow) (hrows : rows0.length = c.n) (fits : List (Hdu V))
    (hf : reserveImages c.ops c.pars (c.n * c.npix) (c.n * c.npixPsf) c.nExtra c.npix c.npixPsf = .ok fits)
    (slices seeds : List Nat) (hs : slices.Nodup) (hc : GoodCompute c compute (jobsOf seeds slices))
    (nChunks nJobs cap k : Nat) (hj : 1 ≤ nJobs) (hcap : 1 ≤ cap) (chunks : List (List (Nat × Nat)))
    (hch : allChunks slices seeds nChunks = .ok chunks) (s : PState V E)
    (hrun : Steps c compute slices.length nJobs cap k (PState.init chunks ⟨fits, rows0, []⟩) s)
    (hend : ¬ ∃ t, Step c compute slices.length nJobs cap s t) :
    ((∀ i ∈ slices, ∃ r, compute i (seeds.getD i 0) = .ok r) → s.status = .done) ∧
    ((∃ i ∈ slices, ∃ e, compute i (seeds.getD i 0) = .error e) → s.status = .raised .runtimeError) := by
  have hnr : s.status ≠ .running := fun hr =>
    hend (C61_progress c compute rows0 hrows fits hf slices seeds hs hc nChunks nJobs cap k hj hcap chunks hch s hrun hr)
  obtain ⟨h1, _⟩ := chunks_of hch
  have hfits := reserved_of hf
  subst hfits
  have hl : slices.length = chunks.flatten.length := by rw [h1, jobsOf, List.length_map]
  rw [hl] at hrun
  rw [← h1] at hc
  have hnd : (chunks.flatten.map Prod.fst).Nodup := by rw [h1, jobsOf_fst]; exact hs
  obtain ⟨_, a2, a3⟩ := run_inv hrows hc hnd hrun
  constructor
  · intro hall
    cases hst : s.status with
    | running => exact absurd hst hnr
    | done => rfl
    | raised e =>
      obtain ⟨_, j, hjm, e', he⟩ := a2 e hst
      rw [h1] at hjm
      obtain ⟨i, hi, rfl⟩ := List.mem_map.1 hjm
      obtain ⟨r, hr⟩ := hall i hi
      rw [hr] at he; cases he
  · rintro ⟨i, hi, e, he⟩
    cases hst : s.status with
    | running => exact absurd hst hnr
    | raised e => rw [(a2 e hst).1]
    | done =>
      exfalso
      obtain ⟨gj, rs, g1, g2, _⟩ := a3 hst
      have hm : (i, seeds.getD i 0) ∈ gj := by
        rw [g1.mem_iff, h1]
        exact List.mem_map.2 ⟨i, hi, rfl⟩
      have hm2 : compute i (seeds.getD i 0) ∈ rs.map Except.ok := by
        rw [← g2]
        exact List.mem_map.2 ⟨_, hm, rfl⟩
      obtain ⟨r, _, hr⟩ := List.mem_map.1 hm2
      rw [he] at hr; cases hr

/-- C61: every run can be continued to a complete one. -/
theorem C61_completes (c : RunShape V) (compute : Nat → Nat → Except Err (SliceRes V E))
    (n nJobs cap k : Nat) (s0 s : PState V E) (hrun : Steps c compute n nJobs cap k s0 s) :
    ∃ k' t, Steps c compute n nJobs cap (k + k') s0 t ∧ ¬ ∃ u, Step c compute n nJobs cap t u := by
  generalize hm : s.left = m
  induction m using Nat.strong_induction_on generalizing k s with
  | _ m ih =>
    by_cases hu : ∃ u, Step c compute n nJobs cap s u
    · obtain ⟨u, hu⟩ := hu
      obtain ⟨k', t, h1, h2⟩ := ih _ (hm ▸ left_step hu) (k + 1) u (.tail hrun hu) rfl
      exact ⟨1 + k', t, by rw [← Nat.add_assoc]; exact h1, h2⟩
    · exact ⟨0, s, hrun, hu⟩

/-- C61: the sequential run raises the exception of the first slice that fails. -/
theorem C61_sequential (c : RunShape V) (compute : Nat → Nat → Except Err (SliceRes V E))
    (rows0 : List RunRow) (hrows : rows0.length = c.n) (fits : List (Hdu V))
    (hf : reserveImages c.ops c.pars (c.n * c.npix) (c.n * c.npixPsf) c.nExtra c.npix c.npixPsf = .ok fits)
    (pre post seeds : List Nat) (i : Nat) (hs : (pre ++ i :: post).Nodup)
    (hc : GoodCompute c compute (jobsOf seeds (pre ++ i :: post)))
    (hpre : ∀ j ∈ pre, ∃ r, compute j (seeds.getD j 0) = .ok r) (e : Err)
    (he : compute i (seeds.getD i 0) = .error e) :
    runSeq c compute ⟨fits, rows0, []⟩ (jobsOf seeds (pre ++ i :: post)) = .error e := by
  have hfits := reserved_of hf
  subst hfits
  have hrs : ∃ rs : List (SliceRes V E), (jobsOf seeds pre).map (fun j => compute j.1 j.2) = rs.map .ok := by
    clear hs hc
    induction pre with
    | nil => exact ⟨[], rfl⟩
    | cons a l ih =>
      obtain ⟨rs, h⟩ := ih fun j hj => hpre j (by simp [hj])
      obtain ⟨r, hr⟩ := hpre a (by simp)
      refine ⟨r :: rs, ?_⟩
      have : jobsOf seeds (a :: l) = (a, seeds.getD a 0) :: jobsOf seeds l := rfl
      rw [this, List.map_cons, h, List.map_cons, ← hr]
  obtain ⟨rs, hrs⟩ := hrs
  have happ : jobsOf seeds (pre ++ i :: post) = jobsOf seeds pre ++ (i, seeds.getD i 0) :: jobsOf seeds post := by
    simp [jobsOf]
  rw [happ] at hc ⊢
  obtain ⟨o, o1, _⟩ := runSeq_holds hrows (jobs := jobsOf seeds pre)
    (fun j hj => hc j (by simp [hj])) (by rw [jobsOf_fst]; exact hs.of_append_left) hrs
  generalize (⟨c.reserved, rows0, []⟩ : Out V E) = o0 at o1 ⊢
  generalize jobsOf seeds pre = l at o1 ⊢
  clear hc happ hrs
  induction l generalizing o0 with
  | nil =>
    show (compute i (seeds.getD i 0) >>= _) = _
    rw [he]; rfl
  | cons j l ih =>
    rw [List.cons_append]
    unfold runSeq at o1 ⊢
    obtain ⟨r, h1, h2⟩ := bind_eq_ok.1 o1
    obtain ⟨o2, h3, h4⟩ := bind_eq_ok.1 h2
    rw [h1]
    show (processResults c.ops c.npix c.npixPsf o0 r >>= _) = _
    rw [h3]
    exact ih _ h4

/-- C61: nothing guards against a worker that is killed: if the only worker dies at the right moment
the parent waits for ever. -/
theorem C61_killed_worker_stuck (c : RunShape V) (compute : Nat → Nat → Except Err (SliceRes V E))
    (o : Out V E) (i seed : Nat) (nJobs cap : Nat) (hj : 1 ≤ nJobs) :
    ∃ s : PState V E, KStep c compute 1 nJobs cap (PState.init [[(i, seed)]] o)
        ⟨[], [[(i, seed)]], [], o, 0, .running⟩ ∧
      KStep c compute 1 nJobs cap ⟨[], [[(i, seed)]], [], o, 0, .running⟩ s ∧ s.status = .running ∧
      ¬ ∃ t, KStep c compute 1 nJobs cap s t := by
  refine ⟨⟨[], [], [], o, 0, .running⟩, .step (.start _ [] [] [] [] o 0 (by simp; omega)),
    .kill [] [] _ [] [] o 0, rfl, ?_⟩
  rintro ⟨t, ht⟩
  generalize hs : (⟨[], [], [], o, 0, .running⟩ : PState V E) = s at ht
  cases ht with
  | kill p w1 ch w2 => injection hs with _ h; simp at h
  | step h =>
    cases h with
    | start ch p1 p2 => injection hs with h; simp at h
    | work p w1 j js w2 => injection hs with _ h; simp at h
    | fail p w1 j js w2 => injection hs with _ h; simp at h
    | finish p w1 w2 => injection hs with _ h; simp at h
    | get p w q1 r q2 => injection hs with _ _ h; simp at h
    | getBad p w q1 r q2 => injection hs with _ _ h; simp at h
    | getError p w q1 r q2 => injection hs with _ _ h; simp at h
    | join q => injection hs with _ _ _ _ h; simp at h

/-- C88: a slice that is processed in two runs over different sets of slices (with the seeds of the
tile, C71) has the same row of object data and the same pixels in both. -/
theorem C88_slice (c : RunShape V) (compute : Nat → Nat → Except Err (SliceRes V E))
    (rows0 : List RunRow) (hrows : rows0.length = c.n) (fits : List (Hdu V))
    (hf : reserveImages c.ops c.pars (c.n * c.npix) (c.n * c.npixPsf) c.nExtra c.npix c.npixPsf = .ok fits)
    (seeds slices slices' : List Nat) (hs : slices.Nodup) (hs' : slices'.Nodup)
    (hc : GoodCompute c compute (jobsOf seeds slices)) (hc' : GoodCompute c compute (jobsOf seeds slices'))
    (o o' : Out V E) (h : runSeq c compute ⟨fits, rows0, []⟩ (jobsOf seeds slices) = .ok o)
    (h' : runSeq c compute ⟨fits, rows0, []⟩ (jobsOf seeds slices') = .ok o')
    (i : Nat) (hi : i ∈ slices) (hi' : i ∈ slices') :
    o.rows[i]? = o'.rows[i]? ∧
    ∀ a ∈ o.fits, ∀ b ∈ o'.fits, a.name = b.name → ∀ k < perSlice c.npix c.npixPsf a.name,
      a.px (i * perSlice c.npix c.npixPsf a.name + k) = b.px (i * perSlice c.npix c.npixPsf a.name + k) := by
  have hfits := reserved_of hf
  subst hfits
  obtain ⟨rs, hrs⟩ := runSeq_ok_inv h
  obtain ⟨rs', hrs'⟩ := runSeq_ok_inv h'
  obtain ⟨o1, a1, a2, a3⟩ := runSeq_holds hrows hc (by rw [jobsOf_fst]; exact hs) hrs
  obtain ⟨o2, b1, b2, b3⟩ := runSeq_holds hrows hc' (by rw [jobsOf_fst]; exact hs') hrs'
  rw [h] at a1
  rw [h'] at b1
  have a1 := Except.ok.inj a1
  have b1 := Except.ok.inj b1
  subst a1 b1
  have g1 := (results_good hc hrs fun _ hj => hj).2
  have g2 := (results_good hc' hrs' fun _ hj => hj).2
  have find : ∀ (sl : List Nat) (l : List (SliceRes V E)), i ∈ sl →
      (jobsOf seeds sl).map (fun j => compute j.1 j.2) = l.map .ok →
      ∃ r ∈ l, compute i (seeds.getD i 0) = .ok r := by
    intro sl l him hl
    have hm : compute i (seeds.getD i 0) ∈ l.map Except.ok := by
      rw [← hl]
      exact List.mem_map.2 ⟨(i, seeds.getD i 0), List.mem_map.2 ⟨i, him, rfl⟩, rfl⟩
    obtain ⟨r, h1, h2⟩ := List.mem_map.1 hm
    exact ⟨r, h1, h2.symm⟩
  obtain ⟨r, hr, hcr⟩ := find slices rs hi hrs
  obtain ⟨r', hr', hcr'⟩ := find slices' rs' hi' hrs'
  rw [hcr] at hcr'
  have hcr' := Except.ok.inj hcr'
  subst hcr'
  have hri : r.i = i := (hc _ (List.mem_map.2 ⟨i, hi, rfl⟩) r hcr).1
  have uniq : ∀ (l : List (SliceRes V E)), (l.map SliceRes.i).Nodup → r ∈ l → ∀ x ∈ l, x.i = i → x = r := by
    intro l hn hrl x hx hxi
    exact List.inj_on_of_nodup_map hn hx hrl (by rw [hxi, hri])
  have hn : (rs.map SliceRes.i).Nodup := by rw [g1, jobsOf_fst]; exact hs
  have hn' : (rs'.map SliceRes.i).Nodup := by rw [g2, jobsOf_fst]; exact hs'
  constructor
  · have hlt : r.i < rows0.length := by rw [hrows]; exact (a3 r hr).index
    rw [← hri, a2.rowsDone r hr _ (List.getElem?_eq_getElem hlt),
      b2.rowsDone r hr' _ (List.getElem?_eq_getElem hlt)]
  · intro a ha b hb hab k hk
    have hpos : perSlice c.npix c.npixPsf a.name ≠ 0 := by omega
    have hdiv : (i * perSlice c.npix c.npixPsf a.name + k) / perSlice c.npix c.npixPsf a.name = i := by
      rw [Nat.add_comm, Nat.add_mul_div_right _ _ (by omega), Nat.div_eq_of_lt hk]; omega
    by_cases hz : r.weights = [] ∨ a.name = "seg_cutouts"
    · rw [a2.zero a ha, b2.zero b hb]
      · intro x hx hw hxi _
        rw [← hab, hdiv] at hxi
        have := uniq rs' hn' hr' x hx hxi.symm
        subst this
        rw [← hab]
        exact hz.resolve_left hw
      · intro x hx hw hxi _
        rw [hdiv] at hxi
        have := uniq rs hn hr x hx hxi.symm
        subst this
        exact hz.resolve_left hw
    · push Not at hz
      obtain ⟨p, hpx, hgood⟩ := (a3 r hr).pix hz.1
      obtain ⟨ws, _, _, w3, w4⟩ := writesOf_facts hgood 0 0
      have hall : a.name ∈ allNames c.nExtra := by
        have := List.mem_map_of_mem (f := Hdu.name) ha
        rwa [(forall₂_names a2.shape).1, RunShape.reserved, reserved_names] at this
      obtain ⟨w, hw, hwe⟩ := w4 a.name hall hz.2
      have hpv := (w3 w hw).1
      rw [hwe] at hpv
      have hlen := hgood.size _ _ hpv
      have e1 := a2.stored a ha r hr hz.1 p hpx w.data hpv k (by omega)
      have e2 := b2.stored b hb r hr' hz.1 p hpx w.data (hab ▸ hpv) k (by omega)
      rw [hri] at e1 e2
      rw [← hab] at e2
      rw [e1, e2]
      have dt : ∀ (l : List (Hdu V)) (x : Hdu V), x ∈ l → List.Forall₂ (fun a b : Hdu V =>
          a.name = b.name ∧ a.dtype = b.dtype ∧ a.dims = b.dims ∧ a.header = b.header) l c.reserved →
          x.dtype = extDtype x.name := by
        intro l x hx hf2
        obtain ⟨m, hm, rfl⟩ := List.getElem_of_mem hx
        have s1 := List.forall₂_iff_get.1 hf2
        have hm' : m < c.reserved.length := by rw [← s1.1]; exact hm
        have := s1.2 m hm hm'
        simp only [List.get_eq_getElem] at this
        rw [this.1, this.2.1]
        have hmem := List.getElem_mem hm'
        obtain ⟨y, _, hy⟩ := List.mem_map.1 hmem
        rw [← hy]; rfl
      rw [dt _ a ha a2.shape, dt _ b hb b2.shape, hab]

end Pizza
