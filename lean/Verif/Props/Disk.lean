import Verif.Spec.Disk
import Verif.Props.Output

/-!
# C111: the files of a run
-/

set_option linter.unusedSectionVars false
set_option linter.unusedSimpArgs false
set_option linter.unusedVariables false

namespace RustBCA
open Scalar Spec

theorem endings_free : ∀ a ∈ endings.map String.toList, ∀ b ∈ endings.map String.toList, a <:+ b → a = b := by
  decide

/-- **C111, names.** Runs with different names have no file in common, and the files of one run are
all different. -/
theorem C111_distinct (n1 n2 e1 e2 : String) (h1 : e1 ∈ endings) (h2 : e2 ∈ endings)
    (h : n1 ++ e1 = n2 ++ e2) : n1 = n2 ∧ e1 = e2 := by
  have hl := congrArg String.toList h
  rw [String.toList_append, String.toList_append] at hl
  have m1 := List.mem_map_of_mem (f := String.toList) h1
  have m2 := List.mem_map_of_mem (f := String.toList) h2
  have he : e1.toList = e2.toList := by
    rcases List.append_eq_append_iff.mp hl with ⟨c, hc, hd⟩ | ⟨c, hc, hd⟩
    · exact (endings_free _ m2 _ m1 ⟨c, hd.symm⟩).symm
    · exact endings_free _ m1 _ m2 ⟨c, hd.symm⟩
  have e := String.toList_inj.mp he
  rw [he] at hl
  exact ⟨String.toList_inj.mp (List.append_cancel_right hl), e⟩

theorem perform_append (d : Disk) (a b : List DiskOp) : perform d (a ++ b) = perform (perform d a) b :=
  List.foldl_append

theorem perform_other (ops : List DiskOp) (d : Disk) (p : String) (h : ∀ op ∈ ops, op.path ≠ p) :
    perform d ops p = d p := by
  induction ops generalizing d with
  | nil => rfl
  | cons op ops ih =>
    show perform (op.perform d) ops p = d p
    rw [ih _ fun o ho => h o (List.mem_cons_of_mem _ ho)]
    have := h op List.mem_cons_self
    cases op <;> simp only [DiskOp.perform, DiskOp.path] at this ⊢ <;> rw [if_neg (Ne.symm this)]

variable {F : Type} [Scalar F]

theorem ending_mem (f : OutFile) : f.ending ∈ endings := by cases f <;> simp [OutFile.ending, endings]

theorem ending_inj {f g : OutFile} (h : f.ending = g.ending) : f = g := by
  revert h
  cases f <;> cases g <;> simp [OutFile.ending]

theorem files_paths (cfg : OutputConfig F) (toml : Distributions F → String) (options : Options F)
    (s : RunState F) : ∀ op ∈ physics_loop_files cfg toml options s, FileOf options.name op.path := by
  intro op h
  simp only [physics_loop_files, List.mem_append] at h
  rcases h with (((h | h) | h) | h) | h
  · split at h
    · simp only [open_output_lists, List.mem_cons, List.not_mem_nil, or_false] at h
      rcases h with rfl | rfl | rfl | rfl | rfl | rfl | rfl <;> exact ⟨_, ending_mem _, rfl⟩
    · cases h
  · simp only [open_summary, List.mem_cons, List.not_mem_nil, or_false] at h
    subst h
    exact ⟨_, by simp [endings], rfl⟩
  · split at h
    · simp only [list_writes, List.mem_filterMap] at h
      obtain ⟨o, -, ho⟩ := h
      cases o with
      | write f l => cases ho; exact ⟨_, ending_mem f, rfl⟩
      | flush f => cases ho
    · cases h
  · simp only [print_summary, List.mem_cons, List.mem_map] at h
    rcases h with rfl | ⟨r, -, rfl⟩ <;> exact ⟨"summary.output", by simp [endings], rfl⟩
  · cases hx : s.distributions with
    | some d =>
      rw [hx] at h
      simp only [distributions_file, print_distributions, List.mem_cons, List.not_mem_nil, or_false] at h
      rcases h with rfl | rfl <;> exact ⟨"distributions.toml", by simp [endings], rfl⟩
    | none => rw [hx] at h; cases h

/-- **C111, other files.** At no moment of a run is a file other than its nine different from what it
was before. -/
theorem C111_untouched (cfg : OutputConfig F) (toml : Distributions F → String) (options : Options F)
    (s : RunState F) (before now : Disk) (path : String) (h : ¬ FileOf options.name path)
    (moment : AtSomeMoment before (physics_loop_files cfg toml options s) now) : now path = before path := by
  have key : ∀ done : List DiskOp, (∀ op ∈ done, FileOf options.name op.path) →
      perform before done path = before path := fun done hd =>
    perform_other _ _ _ fun op ho e => h (e ▸ hd op ho)
  have hp := files_paths cfg toml options s
  obtain ⟨done, hdone, rfl | ⟨p, text, part, hq, -, rfl⟩⟩ := moment
  · exact key _ fun op ho => hp op (hdone.subset ho)
  · refine key _ fun op ho => ?_
    rcases List.mem_append.mp ho with ho | ho
    · exact hp op (hdone.subset ho)
    · have : op = .append p part := by simpa using ho
      subst this
      exact hp (.append p text) (hq.subset (by simp))

/-- the texts appended to one path, in order -/
def appended (p : String) (ops : List DiskOp) : List Char :=
  (ops.filterMap fun op => match op with
    | .append q t => if q = p then some t else none
    | .truncate _ => none).flatten

theorem perform_appends (ops : List DiskOp) (d : Disk) (p : String) (c : List Char) (h : d p = some c)
    (hn : ∀ op ∈ ops, op ≠ .truncate p) : perform d ops p = some (c ++ appended p ops) := by
  induction ops generalizing d c with
  | nil => simpa [appended, perform] using h
  | cons op ops ih =>
    show perform (op.perform d) ops p = _
    have hn' : ∀ o ∈ ops, o ≠ .truncate p := fun o ho => hn o (List.mem_cons_of_mem _ ho)
    cases op with
    | truncate q =>
      have hq : p ≠ q := fun e => hn (.truncate q) List.mem_cons_self (by rw [e])
      rw [ih _ c (by simp only [DiskOp.perform]; rw [if_neg hq]; exact h) hn']
      rfl
    | append q t =>
      by_cases hq : q = p
      · subst hq
        rw [ih _ (c ++ t) (by simp [DiskOp.perform, h]) hn']
        simp [appended, List.append_assoc]
      · rw [ih _ c (by simp only [DiskOp.perform]; rw [if_neg (Ne.symm hq)]; exact h) hn']
        simp [appended, hq]

theorem appended_append (p : String) (a b : List DiskOp) : appended p (a ++ b) = appended p a ++ appended p b := by
  simp [appended, List.filterMap_append]

theorem appended_other (p : String) (ops : List DiskOp) (h : ∀ op ∈ ops, op.path ≠ p) : appended p ops = [] := by
  induction ops with
  | nil => rfl
  | cons op ops ih =>
    rw [show op :: ops = [op] ++ ops from rfl, appended_append,
      ih fun o ho => h o (List.mem_cons_of_mem _ ho)]
    have := h op List.mem_cons_self
    cases op with
    | truncate q => rfl
    | append q t =>
      simp only [DiskOp.path] at this
      simp [appended, this]

theorem appended_writes (options : Options F) (f : OutFile) (ops : List OutOp) :
    appended (options.name ++ f.ending) (list_writes options ops) = textOf f ops := by
  induction ops with
  | nil => rfl
  | cons op ops ih =>
    have e : list_writes options (op :: ops) = list_writes options [op] ++ list_writes options ops := by
      rw [show op :: ops = [op] ++ ops from rfl]
      simp only [list_writes, List.filterMap_append]
    have e2 : textOf f (op :: ops) = textOf f [op] ++ textOf f ops := by
      rw [show op :: ops = [op] ++ ops from rfl]
      simp only [textOf, linesOf, List.filterMap_append, List.map_append, List.flatten_append]
    rw [e, appended_append, ih, e2]
    congr 1
    cases op with
    | flush g => rfl
    | write g l =>
      by_cases hg : g = f
      · subst hg
        simp [list_writes, appended, textOf, linesOf, line]
      · have : options.name ++ g.ending ≠ options.name ++ f.ending := fun h =>
          hg (ending_inj (C111_distinct _ _ _ _ (ending_mem g) (ending_mem f) h).2)
        simp [list_writes, appended, textOf, linesOf, hg, this]

/-- a run truncates a file before it writes to it: contents afterwards -/
theorem perform_fresh (pre post : List DiskOp) (d : Disk) (p : String)
    (hn : ∀ op ∈ post, op ≠ .truncate p) :
    perform d (pre ++ .truncate p :: post) p = some (appended p post) := by
  rw [perform_append]
  show perform (DiskOp.perform (perform d pre) (.truncate p)) post p = _
  rw [perform_appends _ _ _ [] (by simp [DiskOp.perform]) hn]
  rfl

set_option maxHeartbeats 1000000 in
/-- **C111, list files.** After a run that ended, each list file holds the lines of this run and
nothing else, whatever was in it before. -/
theorem C111_list_files (cfg : OutputConfig F) (toml : Distributions F → String) (options : Options F)
    (s : RunState F) (before : Disk) (hl : cfg.list_output = true) :
    ∀ f name, (f, name) ∈ [(OutFile.reflected, "reflected.output"), (.sputtered, "sputtered.output"),
        (.deposited, "deposited.output"), (.trajectory, "trajectories.output"),
        (.trajectory_data, "trajectory_data.output"), (.displacements, "displacements.output"),
        (.energy_loss, "energy_loss.output")] →
      perform before (physics_loop_files cfg toml options s) (options.name ++ name)
        = some (textOf f s.ops) := by
  intro f name hf
  have hname : name = f.ending := by
    simp only [List.mem_cons, List.not_mem_nil, or_false, Prod.mk.injEq] at hf
    rcases hf with ⟨rfl, rfl⟩ | ⟨rfl, rfl⟩ | ⟨rfl, rfl⟩ | ⟨rfl, rfl⟩ | ⟨rfl, rfl⟩ | ⟨rfl, rfl⟩ | ⟨rfl, rfl⟩ <;> rfl
  subst hname
  have hs : options.name ++ "summary.output" ≠ options.name ++ f.ending := fun h => by
    have := (C111_distinct _ _ _ _ (by simp [endings]) (ending_mem f) h).2
    cases f <;> simp [OutFile.ending] at this
  have hd : options.name ++ "distributions.toml" ≠ options.name ++ f.ending := fun h => by
    have := (C111_distinct _ _ _ _ (by simp [endings]) (ending_mem f) h).2
    cases f <;> simp [OutFile.ending] at this
  obtain ⟨pre, post, hsplit, hpost⟩ : ∃ pre post, open_output_lists options
      = pre ++ .truncate (options.name ++ f.ending) :: post ∧
      ∀ op ∈ post, op.path ≠ options.name ++ f.ending := by
    have ne : ∀ g : OutFile, g ≠ f → options.name ++ g.ending ≠ options.name ++ f.ending := fun g hg h =>
      hg (ending_inj (C111_distinct _ _ _ _ (ending_mem g) (ending_mem f) h).2)
    have all : ∀ (gs : List OutFile), (∀ g ∈ gs, g ≠ f) →
        ∀ op ∈ gs.map (fun g => DiskOp.truncate (options.name ++ g.ending)), op.path ≠ options.name ++ f.ending := by
      intro gs hgs op hop
      obtain ⟨g, hg, rfl⟩ := List.mem_map.mp hop
      exact ne g (hgs g hg)
    cases f with
    | reflected => exact ⟨[], _, rfl, all [.sputtered, .deposited, .trajectory, .trajectory_data, .displacements, .energy_loss] (by simp)⟩
    | sputtered => exact ⟨[_], _, rfl, all [.deposited, .trajectory, .trajectory_data, .displacements, .energy_loss] (by simp)⟩
    | deposited => exact ⟨[_, _], _, rfl, all [.trajectory, .trajectory_data, .displacements, .energy_loss] (by simp)⟩
    | trajectory => exact ⟨[_, _, _], _, rfl, all [.trajectory_data, .displacements, .energy_loss] (by simp)⟩
    | trajectory_data => exact ⟨[_, _, _, _], _, rfl, all [.displacements, .energy_loss] (by simp)⟩
    | displacements => exact ⟨[_, _, _, _, _], _, rfl, all [.energy_loss] (by simp)⟩
    | energy_loss => exact ⟨[_, _, _, _, _, _], _, rfl, all [] (by simp)⟩
  have hsum : ∀ op ∈ print_summary cfg.fmt options cfg.units s.summary, op.path = options.name ++ "summary.output" := by
    intro op h
    simp only [print_summary, List.mem_cons, List.mem_map] at h
    rcases h with rfl | ⟨r, -, rfl⟩ <;> rfl
  have hdist : ∀ op ∈ distributions_file toml options s.distributions, op.path = options.name ++ "distributions.toml" := by
    intro op h
    cases hx : s.distributions with
    | some d =>
      rw [hx] at h
      simp only [distributions_file, print_distributions, List.mem_cons, List.not_mem_nil, or_false] at h
      rcases h with rfl | rfl <;> rfl
    | none => rw [hx] at h; cases h
  have hw : ∀ op ∈ list_writes options s.ops, op ≠ .truncate (options.name ++ f.ending) := by
    intro op h
    simp only [list_writes, List.mem_filterMap] at h
    obtain ⟨o, -, ho⟩ := h
    cases o with
    | write f l => cases ho; simp
    | flush f => cases ho
  have e : physics_loop_files cfg toml options s = pre ++ .truncate (options.name ++ f.ending) ::
      (post ++ (open_summary options ++ (list_writes options s.ops ++
        (print_summary cfg.fmt options cfg.units s.summary ++ distributions_file toml options s.distributions)))) := by
    simp only [physics_loop_files, hl, if_true, hsplit, List.append_assoc, List.cons_append]
  have hne : ∀ op : DiskOp, op.path ≠ options.name ++ f.ending → op ≠ .truncate (options.name ++ f.ending) := by
    rintro op h rfl; exact h rfl
  rw [e, perform_fresh _ _ _ _ (by
    intro op h
    simp only [List.mem_append] at h
    rcases h with h | h | h | h | h
    · exact hne _ (hpost op h)
    · simp only [open_summary, List.mem_cons, List.not_mem_nil, or_false] at h
      subst h
      exact hne _ hs
    · exact hw op h
    · exact hne _ (by rw [hsum op h]; exact hs)
    · exact hne _ (by rw [hdist op h]; exact hd))]
  rw [appended_append, appended_append, appended_append, appended_append, appended_other _ _ hpost,
    appended_other _ (open_summary options) (by
      intro op h
      simp only [open_summary, List.mem_cons, List.not_mem_nil, or_false] at h
      subst h
      exact hs),
    appended_writes, appended_other _ _ (fun op h => by rw [hsum op h]; exact hs),
    appended_other _ _ (fun op h => by rw [hdist op h]; exact hd)]
  simp

theorem ending_not_summary (f : OutFile) : f.ending ≠ "summary.output" := by cases f <;> simp [OutFile.ending]

theorem ending_not_distributions (f : OutFile) : f.ending ≠ "distributions.toml" := by
  cases f <;> simp [OutFile.ending]

theorem lists_paths (options : Options F) : ∀ op ∈ open_output_lists options, ∃ f : OutFile,
    op.path = options.name ++ f.ending := by
  intro op h
  simp only [open_output_lists, List.mem_cons, List.not_mem_nil, or_false] at h
  rcases h with rfl | rfl | rfl | rfl | rfl | rfl | rfl <;> exact ⟨_, rfl⟩

theorem writes_paths (options : Options F) (ops : List OutOp) : ∀ op ∈ list_writes options ops, ∃ f : OutFile,
    op.path = options.name ++ f.ending := by
  intro op h
  simp only [list_writes, List.mem_filterMap] at h
  obtain ⟨o, -, ho⟩ := h
  cases o with
  | write f l => cases ho; exact ⟨f, rfl⟩
  | flush f => cases ho

theorem distributions_paths (toml : Distributions F → String) (options : Options F)
    (ds : Option (Distributions F)) :
    ∀ op ∈ distributions_file toml options ds, op.path = options.name ++ "distributions.toml" := by
  intro op h
  cases ds with
  | some d =>
    simp only [distributions_file, print_distributions, List.mem_cons, List.not_mem_nil, or_false] at h
    rcases h with rfl | rfl <;> rfl
  | none => cases h

theorem summary_paths (fmt : F → String) (options : Options F) (units : OutputUnits F)
    (s : SummaryPerSpecies F) :
    ∀ op ∈ print_summary fmt options units s, op.path = options.name ++ "summary.output" := by
  intro op h
  simp only [print_summary, List.mem_cons, List.mem_map] at h
  rcases h with rfl | ⟨r, -, rfl⟩ <;> rfl

theorem other_ending (n e1 e2 : String) (h1 : e1 ∈ endings) (h2 : e2 ∈ endings) (h : e1 ≠ e2) :
    n ++ e1 ≠ n ++ e2 := fun e => h (C111_distinct _ _ _ _ h1 h2 e).2

theorem summary_mem : "summary.output" ∈ endings := by simp [endings]
theorem distributions_mem : "distributions.toml" ∈ endings := by simp [endings]

theorem appended_rows (p : String) (g : (F × Nat × Nat × Nat) → List Char) (rows : List (F × Nat × Nat × Nat)) :
    appended p (rows.map fun r => .append p (g r)) = (rows.map g).flatten := by
  induction rows with
  | nil => rfl
  | cons r rows ih =>
    rw [List.map_cons, show ∀ (x : DiskOp) l, x :: l = [x] ++ l from fun _ _ => rfl, appended_append, ih]
    simp [appended]

theorem join_rows (g : (F × Nat × Nat × Nat) → String) (rows : List (F × Nat × Nat × Nat)) :
    (String.join (rows.map g)).toList = (rows.map fun r => (g r).toList).flatten := by
  rw [String.toList_join, List.flatMap, List.map_map]
  rfl

theorem heading_text : line "mass, reflected, sputtered, deposited"
    = "mass, reflected, sputtered, deposited\n".toList := by decide

theorem comma_text : ",".toList ++ ['\n'] = ",\n".toList := by decide

theorem toString_string (a : String) : toString a = a := rfl

theorem row_text (a b c d : String) : line (a ++ ", " ++ b ++ ", " ++ c ++ ", " ++ d ++ ",")
    = (a ++ ", " ++ b ++ ", " ++ c ++ ", " ++ d ++ ",\n").toList := by
  rw [line, String.toList_append, List.append_assoc, comma_text, ← String.toList_append]

theorem appended_summary (fmt : F → String) (options : Options F) (units : OutputUnits F)
    (s : SummaryPerSpecies F) :
    appended (options.name ++ "summary.output") (print_summary fmt options units s)
      = (summaryText fmt (s.rows units)).toList := by
  suffices key : ∀ (p : String) (rows : List (F × Nat × Nat × Nat)),
      appended p ([.append p (line "mass, reflected, sputtered, deposited")] ++
      rows.map fun r => .append p (line (fmt r.1 ++ ", " ++ toString r.2.1 ++ ", " ++ toString r.2.2.1 ++ ", " ++ toString r.2.2.2 ++ ",")))
      = (summaryText fmt rows).toList from key _ _
  intro p rows
  have e1 : appended p [.append p (line "mass, reflected, sputtered, deposited")]
      = "mass, reflected, sputtered, deposited\n".toList := by
    rw [← heading_text]
    simp [appended]
  have e2 : (summaryText fmt rows).toList = "mass, reflected, sputtered, deposited\n".toList ++
      (rows.map fun r => line (fmt r.1 ++ ", " ++ toString r.2.1 ++ ", " ++ toString r.2.2.1 ++ ", " ++ toString r.2.2.2 ++ ",")).flatten := by
    refine (String.toList_append).trans (congrArg _ ((join_rows _ _).trans (congrArg _ (List.map_congr_left ?_))))
    rintro ⟨m, r, sp, d⟩ -
    exact (row_text _ _ _ _).symm
  exact ((appended_append _ _ _).trans (congrArg₂ _ e1 (appended_rows p _ _))).trans e2.symm

set_option maxHeartbeats 1000000 in
/-- **C111, summary.** After a run that ended, summary.output is the heading and the rows of this run,
whatever was in it before and in every build. -/
theorem C111_summary (cfg : OutputConfig F) (toml : Distributions F → String) (options : Options F)
    (s : RunState F) (before : Disk) :
    perform before (physics_loop_files cfg toml options s) (options.name ++ "summary.output")
      = some (summaryText cfg.fmt (s.summary.rows cfg.units)).toList := by
  have lists : ∀ op : DiskOp, (∃ f : OutFile, op.path = options.name ++ f.ending) →
      op.path ≠ options.name ++ "summary.output" := fun op ⟨f, hf⟩ => by
    rw [hf]; exact other_ending _ _ _ (ending_mem f) summary_mem (ending_not_summary f)
  have hw : ∀ op ∈ (if cfg.list_output then list_writes options s.ops else []),
      op.path ≠ options.name ++ "summary.output" := by
    intro op h
    split at h
    · exact lists op (writes_paths _ _ op h)
    · cases h
  have hd : ∀ op ∈ distributions_file toml options s.distributions,
      op.path ≠ options.name ++ "summary.output" := fun op h => by
    rw [distributions_paths _ _ _ op h]
    exact other_ending _ _ _ distributions_mem summary_mem (by simp)
  have e : physics_loop_files cfg toml options s = (if cfg.list_output then open_output_lists options else []) ++
      .truncate (options.name ++ "summary.output") :: ((if cfg.list_output then list_writes options s.ops else []) ++
        (print_summary cfg.fmt options cfg.units s.summary ++ distributions_file toml options s.distributions)) := by
    simp only [physics_loop_files, open_summary, List.append_assoc, List.cons_append, List.nil_append]
  have hne : ∀ op : DiskOp, op.path ≠ options.name ++ "summary.output" →
      op ≠ .truncate (options.name ++ "summary.output") := by
    rintro op h rfl; exact h rfl
  rw [e, perform_fresh _ _ _ _ (by
    intro op h
    simp only [List.mem_append] at h
    rcases h with h | h | h
    · exact hne _ (hw op h)
    · simp only [print_summary, List.mem_cons, List.mem_map] at h
      rcases h with rfl | ⟨r, -, rfl⟩ <;> simp
    · exact hne _ (hd op h)),
    appended_append, appended_append, appended_other _ _ hw, appended_other _ _ hd, List.nil_append,
    List.append_nil, appended_summary]

/-- **C111, distributions.** In a build with distributions, distributions.toml is the document of this
run whatever was in it before; in other builds it is not touched. -/
theorem C111_distributions (cfg : OutputConfig F) (toml : Distributions F → String) (options : Options F)
    (s : RunState F) (before : Disk) :
    perform before (physics_loop_files cfg toml options s) (options.name ++ "distributions.toml")
      = (match s.distributions with
        | some d => some ((toml d).toList ++ ['\n'])
        | none => before (options.name ++ "distributions.toml")) := by
  have lists : ∀ op : DiskOp, (∃ f : OutFile, op.path = options.name ++ f.ending) →
      op.path ≠ options.name ++ "distributions.toml" := fun op ⟨f, hf⟩ => by
    rw [hf]; exact other_ending _ _ _ (ending_mem f) distributions_mem (ending_not_distributions f)
  have hs : options.name ++ "summary.output" ≠ options.name ++ "distributions.toml" :=
    other_ending _ _ _ summary_mem distributions_mem (by simp)
  obtain ⟨pre, hpre, e⟩ : ∃ pre, (∀ op ∈ pre, op.path ≠ options.name ++ "distributions.toml") ∧
      physics_loop_files cfg toml options s = pre ++ distributions_file toml options s.distributions := by
    refine ⟨_, ?_, rfl⟩
    intro op h
    simp only [List.mem_append] at h
    rcases h with ((h | h) | h) | h
    · split at h
      · exact lists op (lists_paths _ op h)
      · cases h
    · simp only [open_summary, List.mem_cons, List.not_mem_nil, or_false] at h
      subst h
      exact hs
    · split at h
      · exact lists op (writes_paths _ _ op h)
      · cases h
    · rw [summary_paths _ _ _ _ op h]; exact hs
  rw [e]
  cases s.distributions with
  | none =>
    show perform before (pre ++ []) _ = _
    rw [List.append_nil, perform_other _ _ _ hpre]
  | some d =>
    show perform before (pre ++ .truncate _ :: [.append _ _]) _ = _
    rw [perform_fresh _ _ _ _ (by simp)]
    simp [appended, line]

/-- **C111, two runs.** A later run with another name leaves every file of the earlier run as the
earlier run left it, at every moment and however it ends. -/
theorem C111_two_runs (cfg cfg2 : OutputConfig F) (toml toml2 : Distributions F → String)
    (options options2 : Options F) (s s2 : RunState F) (before now : Disk) (path : String)
    (names : options.name ≠ options2.name) (file : FileOf options.name path)
    (moment : AtSomeMoment (perform before (physics_loop_files cfg toml options s))
      (physics_loop_files cfg2 toml2 options2 s2) now) :
    now path = perform before (physics_loop_files cfg toml options s) path := by
  refine C111_untouched cfg2 toml2 options2 s2 _ now path ?_ moment
  rintro ⟨e2, h2, rfl⟩
  obtain ⟨e, h, eq⟩ := file
  exact names (C111_distinct _ _ _ _ h h2 eq.symm).1

end RustBCA
