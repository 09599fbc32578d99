import Verif.Lemmas.Sharing
/- Shared mutable attributes (C128, C129). -/
namespace CalCore
open Spec

/-- C128: as long as nobody changes a set, a rule or a list in place, sharing cannot be seen: after every sequence of
calls, with any objects passed on, specifications and events have the values that they should have. -/
theorem C128_values (ops : List MemOp) (h : ∀ op ∈ ops, ¬ InPlace op) :
    (startMemory.run ops).plain = PlainMemory.run ⟨[], []⟩ ops := by
  have key : ∀ (ops : List MemOp) (m : Memory), m.Good → (∀ op ∈ ops, ¬ InPlace op) →
      (m.run ops).plain = PlainMemory.run m.plain ops := by
    intro ops
    induction ops with
    | nil => intro m _ _; rfl
    | cons op rest ih =>
      intro m hm h
      obtain ⟨h1, h2⟩ := step_copies hm op (h op (List.mem_cons_self ..))
      unfold Memory.run PlainMemory.run
      rw [ih _ h2 (fun o ho => h o (List.mem_cons_of_mem _ ho)), h1]
  exact key ops startMemory start_good h

/-- C128: after every sequence of calls, changing the categories of an event in place changes the categories of exactly
the events that have the same set object, and nothing else of any event. -/
theorem C128_frame (ops : List MemOp) (m : Memory) (hm : startMemory.run? ops = some m) (e : Nat) (o : MemEvent)
    (he : m.events[e]? = some o) (v : Finset String) (j : Nat) (x : MemEvent) (hj : m.events[j]? = some x) :
    (m.step (.changeCats e v)).plain.events[j]? =
      some ⟨if x.cats = o.cats then v else m.catsAt x.cats, m.ruleAt x.rule, x.invited⟩ := by
  have hv := (run_tracks start_tracks hm).valid
  unfold Memory.step Memory.step?
  simp only [he, Option.map_some, Option.getD_some]
  unfold Memory.plain
  simp only [List.getElem?_map, hj, Option.map_some]
  congr 1
  unfold Memory.eventValue
  congr 1
  unfold Memory.catsAt
  simp only []
  by_cases h : x.cats = o.cats
  · rw [if_pos h, h, List.getElem?_set_self ((hv.events o (List.mem_of_getElem? he)).1)]
    rfl
  · rw [if_neg h, List.getElem?_set_ne (fun h' => h h'.symm)]

/-- C128: in a client that makes a new set and a new rule for every call, and transfers every specification at most once,
each event has its attributes for itself: after any sequence of calls, changes in place included, the events have the
values that they should have.  Missing for all clients: the negations below. -/
theorem C128_own_partial (ops : List MemOp) (h : ∀ op ∈ ops, PassesNew op) (hu : (ops.flatMap transfers).Nodup) :
    (startMemory.run ops).plain.events = (PlainMemory.run ⟨[], []⟩ ops).events := by
  have key : ∀ (ops : List MemOp) (m : Memory) (used : List Nat) (p : PlainMemory), m.Apart used → PlainMemory.Agree used m.plain p →
      (∀ op ∈ ops, PassesNew op) → (∀ s ∈ ops.flatMap transfers, s ∉ used) → (ops.flatMap transfers).Nodup →
      (m.run ops).plain.events = (PlainMemory.run p ops).events := by
    intro ops
    induction ops with
    | nil => intro m used p _ ha _ _ _; exact ha.1
    | cons op rest ih =>
      intro m used p hm ha hp hu hd
      rw [List.flatMap_cons] at hu hd
      obtain ⟨d1, d2, d3⟩ := List.nodup_append.1 hd
      obtain ⟨h1, h2⟩ := apart_step hm op (hp op (List.mem_cons_self ..))
        (fun s hs => hu s (List.mem_append_left _ hs)) ha
      unfold Memory.run PlainMemory.run
      refine ih _ _ _ h1 h2 (fun o ho => hp o (List.mem_cons_of_mem _ ho)) ?_ d2
      intro s hs hmem
      rcases List.mem_append.1 hmem with hmem | hmem
      · exact hu s (List.mem_append_right _ hs) hmem
      · exact d3 s hmem s hs rfl
  refine key ops startMemory [] ⟨[], []⟩ ⟨start_good, ?_⟩ (agree_refl _ _) h (fun _ _ h => by cases h) hu
  refine ⟨?_, ?_, ?_, ?_, ?_, ?_⟩
  · intro i j o o' hi; simp [startMemory] at hi
  · intro i j o o' r hi; simp [startMemory] at hi
  · intro i j o o' hi; simp [startMemory] at hi
  · intro i j o o' r hi; simp [startMemory] at hi
  · intro i s e o _ hi; simp [startMemory] at hi
  · intro i s e o r _ hi; simp [startMemory] at hi

/-- Two events made from one specification; then a category is added to the first. -/
def Sample.twoOfOne : List MemOp :=
  [.spec (some (.new {"work"})) none none, .create 0, .create 0, .changeCats 0 {"work", "urgent"}]

/-- Two specifications made with one set; each makes an event; then a category is added to the first event. -/
def Sample.oneSet : List MemOp :=
  [.spec (some (.new {"work"})) none none, .spec (some (.ofSpec 0)) none none, .create 0, .create 1,
    .changeCats 0 {"work", "urgent"}]

/-- An event made from the attributes of another one; then the rule of the copy is changed. -/
def Sample.copied : List MemOp :=
  [.importNew ∅ (some ⟨.daily, 1, none, none, []⟩) none, .spec (some (.ofEvent 0)) (some (.ofEvent 0)) none, .create 0,
    .changeRule 1 ⟨.daily, 2, none, none, []⟩]

/-- C128 is false for two events made from one specification: both change. -/
theorem C128_one_specification_counterexample : ¬ ∀ ops, (∀ op ∈ ops, PassesNew op) →
    (startMemory.run ops).plain.events = (PlainMemory.run ⟨[], []⟩ ops).events := by
  intro h
  exact absurd (h Sample.twoOfOne (by simp [Sample.twoOfOne, PassesNew, IsNew])) (by decide)

/-- C128 is false for two specifications made with one set. -/
theorem C128_one_set_counterexample : ¬ ∀ ops : List MemOp, (ops.flatMap transfers).Nodup →
    (startMemory.run ops).plain.events = (PlainMemory.run ⟨[], []⟩ ops).events := by
  intro h
  exact absurd (h Sample.oneSet (by decide)) (by decide)

example : (startMemory.run Sample.copied).plain.events ≠ (PlainMemory.run ⟨[], []⟩ Sample.copied).events := by decide

example : (∀ op ∈ Sample.copied.take 3, ¬ InPlace op) ∧ ((startMemory.run (Sample.copied.take 3)).plain.events.length = 2) := by
  refine ⟨by simp [Sample.copied, InPlace], by decide⟩

/-- Both events have the same set. -/
example : ((startMemory.run? (Sample.twoOfOne.take 3)).map (fun m => m.events.map MemEvent.cats)) = some [0, 0] := by decide

/-- A client that the theorem is about: it updates an event by import, edits both in place, and makes another one. -/
def Sample.owner : List MemOp :=
  [.spec (some (.new {"work"})) (some (.new ⟨.daily, 1, none, none, []⟩)) (some (.new [("bob", "CHAIR", "ACCEPTED")])),
    .create 0, .importNew {"home"} none none, .importOld 1 {"work"} none none, .changeCats 0 {"work", "urgent"},
    .changeRule 0 ⟨.daily, 2, none, none, []⟩, .spec none none none, .apply 1 1, .changeCats 1 {"free"}]

example : (∀ op ∈ Sample.owner, PassesNew op) ∧ (Sample.owner.flatMap transfers).Nodup := by
  refine ⟨by simp [Sample.owner, PassesNew, IsNew], by decide⟩

example : (startMemory.run Sample.owner).plain.events =
    [⟨{"work", "urgent"}, some ⟨.daily, 2, none, none, []⟩, [("bob", "CHAIR", "ACCEPTED")]⟩, ⟨{"free"}, none, []⟩] := by
  decide

/-! ### the default list of attendees -/

/-- C129: after every sequence of calls, a specification made without attendees has exactly the attendees that were
appended, so far, to lists of specifications made without attendees. -/
theorem C129_list (ops : List MemOp) (m : Memory) (hm : startMemory.run? ops = some m) (k : Nat) (hk : madeWithout ops k) :
    (m.plain.specs[k]?).map PlainSpec.atts = some (addedToDefault ops) := by
  have h := run_tracks start_tracks hm
  unfold madeWithout at hk
  rw [← h.flags, List.getElem?_map] at hk
  cases ho : m.specs[k]? with
  | none => rw [ho] at hk; cases hk
  | some o =>
    rw [ho] at hk
    simp only [Option.map_some, Option.some.injEq, decide_eq_true_eq] at hk
    unfold Memory.plain
    simp only [List.getElem?_map, ho, Option.map_some]
    unfold Memory.specValue Memory.attsAt addedToDefault
    simp only []
    rw [hk, h.default]
    rfl

/-- C129: a component imported without attendees, as a new event, invites them all. -/
theorem C129_import (ops : List MemOp) (m : Memory) (hm : startMemory.run? ops = some m) (c : Finset String)
    (r : Option Rule) : ∃ m', m.step? (.importNew c r none) = some m' ∧
    m'.plain.events = m.plain.events ++ [⟨c, r, addedToDefault ops⟩] := by
  have h := run_tracks start_tracks hm
  have hv := h.valid
  unfold Memory.step? Memory.newSpec Memory.giveCats
  cases r with
  | none =>
    refine ⟨_, rfl, ?_⟩
    have he : m.Ext { m with sets := m.sets ++ [c] } := ⟨⟨[c], rfl⟩, ⟨[], by simp⟩, ⟨[], by simp⟩, rfl, rfl⟩
    have hs : (⟨m.sets.length, none, 0⟩ : MemSpec).Valid { m with sets := m.sets ++ [c] } :=
      ⟨by simp, (fun _ hr => by cases hr), hv.default⟩
    rw [(create_spec (he.valid hv) hs).1, he.plain hv]
    unfold Memory.catsAt Memory.ruleAt Memory.attsAt addedToDefault
    simp only []
    rw [List.getElem?_append_right (Nat.le_refl _), h.default]
    simp
  | some v =>
    refine ⟨_, rfl, ?_⟩
    have he : m.Ext { m with sets := m.sets ++ [c], rules := m.rules ++ [v] } :=
      ⟨⟨[c], rfl⟩, ⟨[v], rfl⟩, ⟨[], by simp⟩, rfl, rfl⟩
    have hs : (⟨m.sets.length, some m.rules.length, 0⟩ : MemSpec).Valid
        { m with sets := m.sets ++ [c], rules := m.rules ++ [v] } :=
      ⟨by simp, (fun _ hr => by injection hr with hr; subst hr; simp), hv.default⟩
    rw [(create_spec (he.valid hv) hs).1, he.plain hv]
    unfold Memory.catsAt Memory.ruleAt Memory.attsAt addedToDefault
    simp only [Option.bind_some]
    rw [List.getElem?_append_right (Nat.le_refl _), List.getElem?_append_right (Nat.le_refl _), h.default]
    simp

/-- C129: nobody, as long as no list of attendees is changed in place; `append` to a list that was passed does no harm. -/
theorem C129_nobody_partial (ops : List MemOp)
    (h : ∀ pre s x post, ops = pre ++ .append s x :: post → ¬ madeWithout pre s) : addedToDefault ops = [] := by
  have key : ∀ (l : List MemOp) (pre : List MemOp), ops = pre ++ l → addedToDefault pre = [] → addedToDefault ops = [] := by
    intro l
    induction l with
    | nil => intro pre hp h0; rw [hp, List.append_nil]; exact h0
    | cons op rest ih =>
      intro pre hp h0
      refine ih (pre ++ [op]) (by rw [hp]; simp) ?_
      unfold addedToDefault at h0 ⊢
      rw [List.foldl_append, List.foldl_cons, List.foldl_nil]
      cases op with
      | append s x =>
        have := h pre s x rest hp
        unfold madeWithout at this
        have hs : ∀ d : Defaults, d.flags[s]? ≠ some true → d.step (.append s x) = d := by
          intro d hd
          unfold Defaults.step
          simp only []
          rw [if_neg hd]
        rw [hs _ this]
        exact h0
      | spec c r a =>
        match a with
        | none => exact h0
        | some (.new _) => exact h0
        | some (.ofEvent _) => exact h0
        | some (.ofSpec _) => exact h0
      | create s => exact h0
      | apply s e => exact h0
      | importNew c r a => exact h0
      | importOld e c r a => exact h0
      | assignCats e x => exact h0
      | assignRule e x => exact h0
      | changeCats e v => exact h0
      | changeRule e v => exact h0
  exact key ops [] rfl rfl

/-- A client adds an attendee to a specification of its own, and makes an event from another one. -/
def Sample.leaked : List MemOp :=
  [.spec none none none, .append 0 ("bob", "CHAIR", "ACCEPTED"), .spec none none none, .create 1, .importNew ∅ none none]

/-- C129 is false without the condition: the other event invites the attendee, and so does an import. -/
theorem C129_counterexample : ¬ ∀ ops : List MemOp, (∀ op ∈ ops, PassesNew op ∨ InPlace op) →
    (startMemory.run ops).plain.events = (PlainMemory.run ⟨[], []⟩ ops).events := by
  intro h
  exact absurd (h Sample.leaked (by simp [Sample.leaked, PassesNew, IsNew, InPlace])) (by decide)

example : ((startMemory.run? Sample.leaked).map (fun m => m.plain.events.map PlainEvent.invited)) =
    some [[("bob", "CHAIR", "ACCEPTED")], [("bob", "CHAIR", "ACCEPTED")]] := by decide

example : madeWithout Sample.leaked 1 ∧ addedToDefault Sample.leaked = [("bob", "CHAIR", "ACCEPTED")] := by
  unfold madeWithout; decide

/-- A client that appends only to a list of its own. -/
def Sample.careful : List MemOp :=
  [.spec none none (some (.new [])), .append 0 ("bob", "CHAIR", "ACCEPTED"), .spec none none none, .create 0, .create 1]

example : ∀ pre s x post, Sample.careful = pre ++ .append s x :: post → ¬ madeWithout pre s := by
  intro pre s x post h
  match pre, h with
  | [a], h =>
    simp only [Sample.careful, List.cons_append, List.nil_append, List.cons.injEq, MemOp.append.injEq] at h
    rw [← h.1, ← h.2.1.1]
    unfold madeWithout
    decide
  | [], h => simp [Sample.careful] at h
  | [_, _], h => simp [Sample.careful] at h
  | [_, _, _], h => simp [Sample.careful] at h
  | [_, _, _, _], h => simp [Sample.careful] at h
  | _ :: _ :: _ :: _ :: _ :: _, h => simp [Sample.careful] at h

example : ((startMemory.run? Sample.careful).map (fun m => m.plain.events.map PlainEvent.invited)) =
    some [[("bob", "CHAIR", "ACCEPTED")], []] := by decide

end CalCore
