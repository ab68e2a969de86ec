import Verif.Lemmas.EmdNcemMeta
/-! Properties C112 and C113: EMD files of the Berkeley variant. -/
namespace Verif.Props.EmdNcem
open Verif Verif.EmdNcem Verif.Spec.EmdNcem Verif.Lemmas.EmdNcem

theorem isVelox_false {env : Env} {f : File} (h : NotVelox env f) : isVelox env f = .ok false := by
  unfold isVelox
  rcases h with h | ⟨o, t, h, ht, h1, h2⟩
  · rw [h]
  · rw [h]
    dsimp only
    rw [ht]
    show Except.ok (decide _) = _
    rw [decide_eq_false (not_or.2 ⟨h1, h2⟩)]

theorem fileReader_eq {env : Env} {velox : File → Py (List Sig)} {f : File} {arg : PathArg} {st : Option Bool} (hv : NotVelox env f)
    (hb : Berkeley f) : fileReader env velox f arg st = readFile env f arg st := by
  unfold fileReader
  rw [isVelox_false hv]
  simp only [bind, Except.bind, Bool.false_eq_true, if_false]
  rw [if_pos (isNcem_iff.2 hb)]

theorem mapM_forall {α β : Type} {R : α → β → Prop} {g : α → Py β} : ∀ {l : List α}, (∀ a ∈ l, ∃ b, g a = .ok b ∧ R a b) →
    ∃ bs, l.mapM g = .ok bs ∧ List.Forall₂ R l bs
  | [], _ => ⟨[], rfl, .nil⟩
  | a :: l, h => by
    obtain ⟨b, hb, hr⟩ := h a (by simp)
    obtain ⟨bs, hbs, hrs⟩ := mapM_forall fun a ha => h a (List.mem_cons_of_mem _ ha)
    exact ⟨b :: bs, by rw [List.mapM_cons, hb, hbs]; rfl, .cons hr hrs⟩

theorem mapM_map' {α β γ : Type} (h : α → β) (g : β → Py γ) : ∀ l : List α, (l.map h).mapM g = l.mapM fun a => g (h a)
  | [] => rfl
  | a :: l => by rw [List.map_cons, List.mapM_cons, List.mapM_cons, mapM_map' h g l]

theorem signal_one {env : Env} {f : File} {r : Rec} (hc : Complete f) (h : Holds env f r) :
    ∃ s, readSignal env f false (r.path, []) = .ok s ∧ Shows f r s ∧ ShowsMeta f r.group r.group s := by
  obtain ⟨om, ho, hs, _⟩ := original_ok (env := env) hc
  have hd : dirname r.path = r.group := dirname_inside h.1.1 h.1.2.1.2.2
  have hb : basename r.path = r.name := basename_inside h.1.2.1.2.2
  obtain ⟨a, axes, hr, hsh⟩ := read_one h (basename r.group) om
  refine ⟨⟨a, axes, titleOf (basename r.group), basename f.name, signalType r.group, om⟩, ?_, hsh _ _ _ _, meta_ok hs⟩
  unfold readSignal
  simp only [ho, hd, hb, bind, Except.bind, Bool.false_eq_true, if_false, List.map_nil, hr]

/-- **C113 (first part)**: without stacking, `file_reader` returns one signal for each of the datasets: for those given by `dataset_path`
in their order, or for all datasets of the file whose name begins with one of the known words and whose group has a
non-zero attribute `emd_group_type`. Its values are those of the dataset, with the axes in reverse order unless the file counts
dimensions from zero or the dataset is called `datacube`; every axis has name, units, size, offset and scale of its dimension;
and title, file name, signal type, version, the attributes of the four groups and the parameters of prismatic are in the metadata. -/
theorem C113_datasets {env : Env} {velox : File → Py (List Sig)} {f : File} {arg : PathArg} {st : Option Bool} {rs : List Rec}
    (hv : NotVelox env f) (hb : Berkeley f) (hc : Complete f) (h : ∀ r ∈ rs, Holds env f r)
    (harg : arg = .many (rs.map Rec.path) ∨ (∃ r, rs = [r] ∧ arg = .one r.path ∧ st ≠ some true) ∨
      (arg = .none ∧ st = some false ∧ Ordered f ∧ AllData f (rs.map Rec.path))) :
    ∃ ss, fileReader env velox f arg st = .ok ss ∧ List.Forall₂ (fun r s => Shows f r s ∧ ShowsMeta f r.group r.group s) rs ss := by
  obtain ⟨ss, hss, hall⟩ := mapM_forall (g := fun r : Rec => readSignal env f false (r.path, [])) fun r hr => signal_one hc (h r hr)
  refine ⟨ss, ?_, hall⟩
  have hmap : ((rs.map Rec.path).map fun p => (p, ([] : List Text))).mapM (readSignal env f false) = .ok ss := by
    rw [mapM_map', mapM_map']
    exact hss
  rw [fileReader_eq hv hb]
  rcases harg with rfl | ⟨r, rfl, rfl, hst⟩ | ⟨rfl, rfl, hord, hall⟩
  · unfold readFile
    simp only [bind, Except.bind, Bool.false_eq_true, if_false]
    exact hmap
  · have hst : st.getD false = false := by
      cases st with
      | none => rfl
      | some b => cases b with
        | false => rfl
        | true => exact absurd rfl hst
    unfold readFile
    simp only [bind, Except.bind, hst, Bool.false_eq_true, if_false]
    exact hmap
  · unfold readFile
    simp only [bind, Except.bind, findPaths_ok hord hall, Except.map, Option.getD_some, Bool.false_eq_true, if_false]
    exact hmap

/-! ### Stacks -/

theorem stackBase_ok {f : File} {r : Rec} {base : Text} (h : HoldsData f r) (hc : Common f r base) : stackBase f r.path = base := by
  have hd : dirname r.path = r.group := dirname_inside h.1 h.2.1.2.2
  unfold stackBase
  rw [hd]
  by_cases hp : Prismatic f ∧ ¬ Has "ppotential".toList (inside r.group r.name)
  · rw [if_pos ⟨prismatic_iff.2 hp.1, fun e => hp.2 (inText_iff.1 e)⟩]
    obtain ⟨t, ht, hg⟩ := hc.1 hp
    rw [hg, List.length_append, ht, Nat.add_sub_cancel, List.take_left]
  · rw [if_neg (fun e => hp ⟨prismatic_iff.1 e.1, fun e' => e.2 (inText_iff.2 e')⟩), hc.2 hp]

theorem collect_ok {f : File} : ∀ {ts : List Stack} {n : Nat}, (∀ t ∈ ts, HoldsData f t.first ∧ Common f t.first t.base ∧ ∀ r ∈ t.more, Has t.base r.path) →
    ((ts.flatMap Stack.all).map Rec.path).Nodup → (ts.Pairwise fun s t => ∀ r ∈ t.all, ¬ Has s.base r.path) →
    ((ts.flatMap Stack.all).map Rec.path).length ≤ n →
    collect f n ((ts.flatMap Stack.all).map Rec.path) = ts.map fun t => (t.first.path, t.more.map Rec.path)
  | [], n, _, _, _, _ => by cases n <;> rfl
  | t :: ts, n, h, hn, hp, hl => by
    have e : ((t :: ts).flatMap Stack.all).map Rec.path = t.first.path :: (t.more.map Rec.path ++ (ts.flatMap Stack.all).map Rec.path) := by
      rw [List.flatMap_cons, Stack.all, List.cons_append, List.map_cons, List.map_append]
    rw [e] at hn hl ⊢
    cases n with
    | zero => simp at hl
    | succ n =>
      obtain ⟨hd, hc, hm⟩ := h t (by simp)
      rw [List.nodup_cons] at hn
      rw [List.pairwise_cons] at hp
      have hs := stackBase_ok hd hc
      have h1 : ∀ p ∈ t.more.map Rec.path, (decide (t.first.path ≠ p) && inText (stackBase f t.first.path) p) = true := by
        intro p hpm
        rw [Bool.and_eq_true, decide_eq_true_iff, hs]
        refine ⟨fun e => hn.1 (e ▸ List.mem_append_left _ hpm), ?_⟩
        obtain ⟨r, hr, rfl⟩ := List.mem_map.1 hpm
        exact inText_iff.2 (hm r hr)
      have h2 : ∀ p ∈ (ts.flatMap Stack.all).map Rec.path, (decide (t.first.path ≠ p) && inText (stackBase f t.first.path) p) = false := by
        intro p hpm
        obtain ⟨r, hr, rfl⟩ := List.mem_map.1 hpm
        obtain ⟨u, hu, hru⟩ := List.mem_flatMap.1 hr
        rw [Bool.and_eq_false_iff, hs]
        right
        rw [inText_false]
        exact hp.1 u hu r hru
      have f1 : (t.more.map Rec.path ++ (ts.flatMap Stack.all).map Rec.path).filter
          (fun p => decide (t.first.path ≠ p) && inText (stackBase f t.first.path) p) = t.more.map Rec.path := by
        rw [List.filter_append, List.filter_eq_self.2 h1, List.filter_eq_nil_iff.2 (fun p hp' => by rw [h2 p hp']; simp), List.append_nil]
      have f2 : (t.more.map Rec.path ++ (ts.flatMap Stack.all).map Rec.path).filter
          (fun p => !(decide (t.first.path ≠ p) && inText (stackBase f t.first.path) p)) = (ts.flatMap Stack.all).map Rec.path := by
        rw [List.filter_append, List.filter_eq_nil_iff.2 (fun p hp' => by rw [h1 p hp']; simp),
          List.filter_eq_self.2 (fun p hp' => by rw [h2 p hp']; rfl), List.nil_append]
      rw [collect, List.map_cons]
      dsimp only
      rw [f1, f2, collect_ok (fun u hu => h u (by simp [hu])) (List.nodup_append.1 hn.2).2.1 hp.2 (by simp at hl ⊢; omega)]

theorem signal_stack {env : Env} {f : File} {t : Stack} (hc : Complete f) (h : HoldsStack env f t) (hcom : Common f t.first t.base)
    (hd : HoldsDepth f t) : ∃ s, readSignal env f true (t.first.path, t.more.map Rec.path) = .ok s ∧
      (t.more = [] → Shows f t.first s) ∧ (t.more ≠ [] → ShowsStack f t s) ∧ ShowsMeta f t.first.group t.base s := by
  obtain ⟨om, ho, hs, hsim⟩ := original_ok (env := env) hc
  have hdir : dirname t.first.path = t.first.group := dirname_inside h.1.1.1 h.1.1.2.1.2.2
  have hb : basename t.first.path = t.first.name := basename_inside h.1.1.2.1.2.2
  have hmap : (t.more.map Rec.path).map dirname = t.more.map Rec.group := by
    rw [List.map_map]
    apply List.map_congr_left
    intro r hr
    have := (h.2.1 r hr).1
    exact dirname_inside this.1 this.2.1.2.2
  have hread : ∃ a axes, readGroups env f t.first.group (t.more.map Rec.group) t.first.name (basename t.base) om = .ok (a, axes) ∧
      ∀ ti n s, (t.more = [] → Shows f t.first ⟨a, axes, ti, n, s, om⟩) ∧ (t.more ≠ [] → ShowsStack f t ⟨a, axes, ti, n, s, om⟩) := by
    by_cases hm : t.more = []
    · obtain ⟨a, axes, hr, hsh⟩ := read_one h.1 (basename t.base) om
      rw [hm]
      exact ⟨a, axes, hr, fun ti n s => ⟨fun _ => hsh _ _ _ _, fun e => absurd rfl e⟩⟩
    · obtain ⟨a, axes, hr, hsh⟩ := read_stack h hm (key := basename t.base) (om := om) (fun hp hdep => by
        obtain ⟨at', ha, hdi, hpar⟩ := hd _ hp hm (last_basename t.base) hdep
        obtain ⟨o, s, u, hdep⟩ := hpar _ (rename_ok hdi)
        exact ⟨_, o, s, u, hsim _ hp ha, hdep⟩) (fun l hl => (basename_last hl).symm)
      exact ⟨a, axes, hr, fun ti n s => ⟨fun e => absurd e hm, fun _ => hsh _ _ _⟩⟩
  obtain ⟨a, axes, hr, hsh⟩ := hread
  refine ⟨⟨a, axes, titleOf (basename t.base), basename f.name, signalType t.first.group, om⟩, ?_, (hsh _ _ _).1, (hsh _ _ _).2, meta_ok hs⟩
  unfold readSignal
  simp only [ho, hdir, hb, hmap, bind, Except.bind, if_true, stackBase_ok h.1.1 hcom, hr]

/-- **C113 (partial)**: by default, the datasets of the file are read in stacks: a dataset together with those whose path contains the
path of its group, in prismatic files without the last four characters. A stack of datasets of the same name and shape becomes one
signal with the number of the dataset (or the depth, in prismatic files, from its parameters) as first axis; the other axes are as
for single datasets. Missing: stacks with axes of length one (`C113_stack_fails_squeeze`), of files that count dimensions from zero
(`C113_stack_fails_zero`), datasets of the same group (`C113_stack_fails_same`) or of a group whose name occurs in the path of another one
(`C113_stack_fails_similar`), numbered groups in other files than those of prismatic (`C113_stack_fails_numbered`), data at the root
(`C113_find_fails_root`), and dimensions with one position (`C113_axis_fails_single`). -/
theorem C113_stacks_partial {env : Env} {velox : File → Py (List Sig)} {f : File} {arg : PathArg} {st : Option Bool} {ts : List Stack} {ps : List Text}
    (hv : NotVelox env f) (hb : Berkeley f) (hc : Complete f) (h : ∀ t ∈ ts, HoldsStack env f t ∧ HoldsDepth f t) (hs : Stacked f ps ts)
    (harg : (arg = .none ∧ st ≠ some false ∧ Ordered f ∧ AllData f ps) ∨ (∃ p, arg = .one p ∧ ps = [p] ∧ st = some true)) :
    ∃ ss, fileReader env velox f arg st = .ok ss ∧ List.Forall₂ (fun t s => (t.more = [] → Shows f t.first s) ∧
      (t.more ≠ [] → ShowsStack f t s) ∧ ShowsMeta f t.first.group t.base s) ts ss := by
  obtain ⟨hps, hn, hcom, hpw⟩ := hs
  obtain ⟨ss, hss, hall⟩ := mapM_forall (g := fun t : Stack => readSignal env f true (t.first.path, t.more.map Rec.path)) fun t ht =>
    signal_stack hc (h t ht).1 (hcom t ht).1 (h t ht).2
  refine ⟨ss, ?_, hall⟩
  have hmap : (collect f ps.length ps).mapM (readSignal env f true) = .ok ss := by
    rw [hps, collect_ok (fun t ht => ⟨(h t ht).1.1.1, hcom t ht⟩) (hps ▸ hn) hpw le_rfl, mapM_map']
    exact hss
  rw [fileReader_eq hv hb]
  rcases harg with ⟨rfl, hst, hord, hall⟩ | ⟨p, rfl, hp, rfl⟩
  · have hst : st.getD true = true := by
      cases st with
      | none => rfl
      | some b => cases b with
        | true => rfl
        | false => exact absurd rfl hst
    unfold readFile
    simp only [bind, Except.bind, findPaths_ok hord hall, Except.map, hst, if_true]
    exact hmap
  · unfold readFile
    simp only [bind, Except.bind, Option.getD_some, if_true]
    rw [hp] at hmap
    exact hmap

/-- **C113 (errors)**: a file of neither variant is rejected, and so is a path that is not in the file. -/
theorem C113_rejects {env : Env} {velox : File → Py (List Sig)} {f : File} {st : Option Bool} (hv : NotVelox env f) :
    (¬ Berkeley f → ∀ arg, fileReader env velox f arg st = .error .ioError) ∧
    (Berkeley f → Complete f → ∀ (rs : List Rec) (g n : Text) (l : List Text), (∀ r ∈ rs, Holds env f r) → Path g → Part n →
      getKw (inside g n) f.entries = none → fileReader env velox f (.many (rs.map Rec.path ++ inside g n :: l)) st = .error .ioError) := by
  constructor
  · intro hb arg
    unfold fileReader
    rw [isVelox_false hv]
    simp only [bind, Except.bind, Bool.false_eq_true, if_false]
    rw [if_neg (fun e => hb (isNcem_iff.1 e))]
  · intro hb hc rs g n l h hg hn hnone
    rw [fileReader_eq hv hb]
    unfold readFile
    simp only [bind, Except.bind, Bool.false_eq_true, if_false]
    have hbad : readSignal env f false (inside g n, []) = .error .ioError := by
      obtain ⟨om, ho, hs, _⟩ := original_ok (env := env) hc
      unfold readSignal
      simp only [ho, dirname_inside hg hn.2.2, basename_inside hn.2.2, bind, Except.bind, List.map_nil]
      unfold readGroups datasets
      have e1 : List.map (fun g => get f (child g n)) [g] = [none] := by
        rw [List.map_cons, get_inside hg hn, hnone]; rfl
      rw [e1]
      rfl
    induction rs with
    | nil => 
      rw [List.map_nil, List.nil_append, List.map_cons, List.mapM_cons, hbad]
      rfl
    | cons r rs ih =>
      obtain ⟨s, hs, _⟩ := signal_one hc (h r (by simp))
      rw [List.map_cons, List.cons_append, List.map_cons, List.mapM_cons, hs]
      have := ih fun r hr => h r (by simp [hr])
      simp only [bind, Except.bind]
      rw [this]

end Verif.Props.EmdNcem
