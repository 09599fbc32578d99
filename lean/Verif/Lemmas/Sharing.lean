import Verif.Spec.Sharing
/- Lemmas on specifications and events in memory. -/
namespace CalCore
open Spec

/-- The values of a specification. -/
def Memory.specValue (m : Memory) (s : MemSpec) : PlainSpec := ⟨m.catsAt s.cats, m.ruleAt s.rule, m.attsAt s.atts⟩

/-- The values of an event. -/
def Memory.eventValue (m : Memory) (o : MemEvent) : PlainEvent := ⟨m.catsAt o.cats, m.ruleAt o.rule, o.invited⟩

/-- The values of all specifications and events. -/
def Memory.plain (m : Memory) : PlainMemory := ⟨m.specs.map m.specValue, m.events.map m.eventValue⟩

/-- Valid references. -/
structure Memory.Valid (m : Memory) : Prop where
  specs : ∀ s ∈ m.specs, s.cats < m.sets.length ∧ (∀ r, s.rule = some r → r < m.rules.length) ∧ s.atts < m.lists.length
  events : ∀ o ∈ m.events, o.cats < m.sets.length ∧ (∀ r, o.rule = some r → r < m.rules.length)
  default : 0 < m.lists.length

/-- `m'` has the objects of `m`, and perhaps more sets, rules and lists. -/
structure Memory.Ext (m m' : Memory) : Prop where
  sets : ∃ l, m'.sets = m.sets ++ l
  rules : ∃ l, m'.rules = m.rules ++ l
  lists : ∃ l, m'.lists = m.lists ++ l
  specs : m'.specs = m.specs
  events : m'.events = m.events

theorem Memory.Ext.refl (m : Memory) : m.Ext m := ⟨⟨[], by simp⟩, ⟨[], by simp⟩, ⟨[], by simp⟩, rfl, rfl⟩

theorem Memory.Ext.trans {a b c : Memory} (h : a.Ext b) (h' : b.Ext c) : a.Ext c := by
  obtain ⟨⟨l1, h1⟩, ⟨l2, h2⟩, ⟨l3, h3⟩, h4, h5⟩ := h
  obtain ⟨⟨k1, g1⟩, ⟨k2, g2⟩, ⟨k3, g3⟩, g4, g5⟩ := h'
  exact ⟨⟨l1 ++ k1, by rw [g1, h1, List.append_assoc]⟩, ⟨l2 ++ k2, by rw [g2, h2, List.append_assoc]⟩,
    ⟨l3 ++ k3, by rw [g3, h3, List.append_assoc]⟩, by rw [g4, h4], by rw [g5, h5]⟩

theorem Memory.Ext.catsAt {m m' : Memory} (h : m.Ext m') {r : Addr} (hr : r < m.sets.length) : m'.catsAt r = m.catsAt r := by
  obtain ⟨l, hl⟩ := h.sets
  unfold Memory.catsAt
  rw [hl, List.getElem?_append_left hr]

theorem Memory.Ext.ruleAt {m m' : Memory} (h : m.Ext m') {r : Option Addr} (hr : ∀ x, r = some x → x < m.rules.length) :
    m'.ruleAt r = m.ruleAt r := by
  obtain ⟨l, hl⟩ := h.rules
  unfold Memory.ruleAt
  cases r with
  | none => rfl
  | some x => rw [hl]; simp only [Option.bind_some]; rw [List.getElem?_append_left (hr x rfl)]

theorem Memory.Ext.attsAt {m m' : Memory} (h : m.Ext m') {r : Addr} (hr : r < m.lists.length) : m'.attsAt r = m.attsAt r := by
  obtain ⟨l, hl⟩ := h.lists
  unfold Memory.attsAt
  rw [hl, List.getElem?_append_left hr]

theorem Memory.Ext.valid {m m' : Memory} (h : m.Ext m') (hv : m.Valid) : m'.Valid := by
  obtain ⟨⟨l1, h1⟩, ⟨l2, h2⟩, ⟨l3, h3⟩, h4, h5⟩ := h
  refine ⟨fun s hs => ?_, fun o ho => ?_, ?_⟩
  · rw [h4] at hs
    obtain ⟨a, b, c⟩ := hv.specs s hs
    rw [h1, h2, h3]
    simp only [List.length_append]
    exact ⟨by omega, fun r hr => by have := b r hr; omega, by omega⟩
  · rw [h5] at ho
    obtain ⟨a, b⟩ := hv.events o ho
    rw [h1, h2]
    simp only [List.length_append]
    exact ⟨by omega, fun r hr => by have := b r hr; omega⟩
  · have := hv.default
    rw [h3]
    simp only [List.length_append]
    omega

theorem Memory.Ext.plain {m m' : Memory} (h : m.Ext m') (hv : m.Valid) : m'.plain = m.plain := by
  unfold Memory.plain
  rw [h.specs, h.events]
  congr 1
  · refine List.map_congr_left (fun s hs => ?_)
    obtain ⟨a, b, c⟩ := hv.specs s hs
    unfold Memory.specValue
    rw [h.catsAt a, h.ruleAt b, h.attsAt c]
  · refine List.map_congr_left (fun o ho => ?_)
    obtain ⟨a, b⟩ := hv.events o ho
    unfold Memory.eventValue
    rw [h.catsAt a, h.ruleAt b]

/-! ### arguments -/

theorem giveCats_spec {m : Memory} (hv : m.Valid) (x : Option (Given (Finset String))) :
    match x.elim (some ∅) m.plain.cats with
    | none => m.giveCats x = none
    | some v => ∃ m' r, m.giveCats x = some (m', r) ∧ m.Ext m' ∧ r < m'.sets.length ∧ m'.catsAt r = v := by
  have hnew : ∀ v : Finset String, ∃ m' r, some (({ m with sets := m.sets ++ [v] } : Memory), m.sets.length) = some (m', r) ∧
      m.Ext m' ∧ r < m'.sets.length ∧ m'.catsAt r = v := by
    intro v
    refine ⟨_, _, rfl, ⟨⟨[v], rfl⟩, ⟨[], by simp⟩, ⟨[], by simp⟩, rfl, rfl⟩, by simp, ?_⟩
    unfold Memory.catsAt
    simp
  cases x with
  | none => exact hnew ∅
  | some g =>
    cases g with
    | new v => exact hnew v
    | ofEvent e =>
      simp only [Option.elim, PlainMemory.cats, Memory.plain, Memory.giveCats, List.getElem?_map]
      cases h : m.events[e]? with
      | none => rfl
      | some o =>
        have := (hv.events o (List.mem_of_getElem? h)).1
        exact ⟨m, o.cats, rfl, Memory.Ext.refl m, this, rfl⟩
    | ofSpec s =>
      simp only [Option.elim, PlainMemory.cats, Memory.plain, Memory.giveCats, List.getElem?_map]
      cases h : m.specs[s]? with
      | none => rfl
      | some o =>
        have := (hv.specs o (List.mem_of_getElem? h)).1
        exact ⟨m, o.cats, rfl, Memory.Ext.refl m, this, rfl⟩

theorem giveRule_spec {m : Memory} (hv : m.Valid) (x : Option (Given Rule)) :
    match x.elim (some none) m.plain.rule with
    | none => m.giveRule x = none
    | some v => ∃ m' r, m.giveRule x = some (m', r) ∧ m.Ext m' ∧ (∀ y, r = some y → y < m'.rules.length) ∧
        m'.ruleAt r = v := by
  cases x with
  | none => exact ⟨m, none, rfl, Memory.Ext.refl m, (fun y h => by cases h), rfl⟩
  | some g =>
    cases g with
    | new v =>
      refine ⟨_, _, rfl, ⟨⟨[], by simp⟩, ⟨[v], rfl⟩, ⟨[], by simp⟩, rfl, rfl⟩, ?_, ?_⟩
      · intro y hy; injection hy with hy; subst hy; simp
      · unfold Memory.ruleAt; simp
    | ofEvent e =>
      simp only [Option.elim, PlainMemory.rule, Memory.plain, Memory.giveRule, List.getElem?_map]
      cases h : m.events[e]? with
      | none => rfl
      | some o =>
        have := (hv.events o (List.mem_of_getElem? h)).2
        exact ⟨m, o.rule, rfl, Memory.Ext.refl m, this, rfl⟩
    | ofSpec s =>
      simp only [Option.elim, PlainMemory.rule, Memory.plain, Memory.giveRule, List.getElem?_map]
      cases h : m.specs[s]? with
      | none => rfl
      | some o =>
        have := (hv.specs o (List.mem_of_getElem? h)).2.1
        exact ⟨m, o.rule, rfl, Memory.Ext.refl m, this, rfl⟩

theorem giveAtts_spec {m : Memory} (hv : m.Valid) (hd : m.lists[0]? = some []) (x : Option (Given (List Invitation))) :
    match x.elim (some []) m.plain.atts with
    | none => m.giveAtts x = none
    | some v => ∃ m' r, m.giveAtts x = some (m', r) ∧ m.Ext m' ∧ r < m'.lists.length ∧ m'.attsAt r = v := by
  cases x with
  | none =>
    refine ⟨m, 0, rfl, Memory.Ext.refl m, hv.default, ?_⟩
    unfold Memory.attsAt
    rw [hd]; rfl
  | some g =>
    cases g with
    | new v =>
      refine ⟨_, _, rfl, ⟨⟨[], by simp⟩, ⟨[], by simp⟩, ⟨[v], rfl⟩, rfl, rfl⟩, by simp, ?_⟩
      unfold Memory.attsAt; simp
    | ofEvent e => rfl
    | ofSpec s =>
      simp only [Option.elim, PlainMemory.atts, Memory.plain, Memory.giveAtts, List.getElem?_map]
      cases h : m.specs[s]? with
      | none => rfl
      | some o =>
        have := (hv.specs o (List.mem_of_getElem? h)).2.2
        exact ⟨m, o.atts, rfl, Memory.Ext.refl m, this, rfl⟩

/-- Valid references of a specification object. -/
def MemSpec.Valid (m : Memory) (s : MemSpec) : Prop :=
  s.cats < m.sets.length ∧ (∀ r, s.rule = some r → r < m.rules.length) ∧ s.atts < m.lists.length

theorem MemSpec.Valid.ext {m m' : Memory} {s : MemSpec} (h : m.Ext m') (hv : s.Valid m) : s.Valid m' := by
  obtain ⟨⟨l1, h1⟩, ⟨l2, h2⟩, ⟨l3, h3⟩, _, _⟩ := h
  obtain ⟨a, b, c⟩ := hv
  unfold MemSpec.Valid
  rw [h1, h2, h3]
  simp only [List.length_append]
  exact ⟨by omega, fun r hr => by have := b r hr; omega, by omega⟩

theorem Memory.Ext.specValue {m m' : Memory} (h : m.Ext m') {s : MemSpec} (hv : s.Valid m) : m'.specValue s = m.specValue s := by
  unfold Memory.specValue
  rw [h.catsAt hv.1, h.ruleAt hv.2.1, h.attsAt hv.2.2]

theorem Memory.Ext.default {m m' : Memory} (h : m.Ext m') {v : List Invitation} (hd : m.lists[0]? = some v) :
    m'.lists[0]? = some v := by
  obtain ⟨l, hl⟩ := h.lists
  have h0 : 0 < m.lists.length := by
    rcases Nat.eq_zero_or_pos m.lists.length with h0 | h0
    · rw [List.length_eq_zero_iff.1 h0] at hd; cases hd
    · exact h0
  rw [hl, List.getElem?_append_left h0, hd]

/-- The values that a new specification should have. -/
def PlainMemory.made (p : PlainMemory) (c : Option (Given (Finset String))) (r : Option (Given Rule))
    (a : Option (Given (List Invitation))) : Option PlainSpec :=
  (c.elim (some ∅) p.cats).bind (fun c => (r.elim (some none) p.rule).bind (fun r =>
    (a.elim (some []) p.atts).map (fun a => ⟨c, r, a⟩)))

theorem newSpec_spec {m : Memory} (hv : m.Valid) (hd : m.lists[0]? = some []) (c : Option (Given (Finset String)))
    (r : Option (Given Rule)) (a : Option (Given (List Invitation))) :
    match PlainMemory.made m.plain c r a with
    | none => m.newSpec c r a = none
    | some v => ∃ m' s, m.newSpec c r a = some (m', s) ∧ m.Ext m' ∧ s.Valid m' ∧ m'.specValue s = v := by
  unfold PlainMemory.made Memory.newSpec
  have h1 := giveCats_spec hv c
  cases hc : c.elim (some ∅) m.plain.cats with
  | none => rw [hc] at h1; simp only [] at h1; simp [h1]
  | some cv =>
    rw [hc] at h1
    obtain ⟨m1, rc, g1, e1, l1, v1⟩ := h1
    have hv1 := e1.valid hv
    have h2 := giveRule_spec hv1 r
    rw [e1.plain hv] at h2
    rw [g1]
    simp only [Option.bind_some]
    cases hr : r.elim (some none) m.plain.rule with
    | none => rw [hr] at h2; simp only [] at h2; simp [h2]
    | some rv =>
      rw [hr] at h2
      obtain ⟨m2, rr, g2, e2, l2, v2⟩ := h2
      have hv2 := e2.valid hv1
      have h3 := giveAtts_spec hv2 (e2.default (e1.default hd)) a
      rw [e2.plain hv1, e1.plain hv] at h3
      rw [g2]
      simp only [Option.bind_some]
      cases ha : a.elim (some []) m.plain.atts with
      | none => rw [ha] at h3; simp only [] at h3; simp [h3]
      | some av =>
        rw [ha] at h3
        obtain ⟨m3, ra, g3, e3, l3, v3⟩ := h3
        rw [g3]
        simp only [Option.map_some]
        have l1' : rc < m2.sets.length := by obtain ⟨l, hl⟩ := e2.sets; rw [hl]; simp only [List.length_append]; omega
        refine ⟨m3, ⟨rc, rr, ra⟩, rfl, (e1.trans e2).trans e3, ⟨?_, ?_, l3⟩, ?_⟩
        · obtain ⟨l, hl⟩ := e3.sets
          simp only []
          rw [hl]; simp only [List.length_append]; omega
        · intro x hx
          have := l2 x hx
          obtain ⟨l, hl⟩ := e3.rules
          rw [hl]; simp only [List.length_append]; omega
        · unfold Memory.specValue
          rw [v3, e3.ruleAt l2, v2, e3.catsAt l1', e2.catsAt l1, v1]

/-! ### events -/

theorem onEvent_spec {m : Memory} (hv : m.Valid) (e : Nat) (f : MemEvent → MemEvent) (g : PlainEvent → PlainEvent)
    (hf : ∀ o ∈ m.events, m.eventValue (f o) = g (m.eventValue o) ∧ (f o).cats < m.sets.length ∧
      ∀ r, (f o).rule = some r → r < m.rules.length) :
    match m.plain.onEvent e g with
    | none => m.onEvent e f = none
    | some p => ∃ m', m.onEvent e f = some m' ∧ m'.plain = p ∧ m'.Valid ∧ m'.lists = m.lists := by
  unfold PlainMemory.onEvent Memory.onEvent
  have hp : m.plain.events = m.events.map m.eventValue := rfl
  rw [hp, List.getElem?_map]
  cases h : m.events[e]? with
  | none => rfl
  | some o =>
    obtain ⟨h1, h2, h3⟩ := hf o (List.mem_of_getElem? h)
    refine ⟨_, rfl, ?_, ⟨hv.specs, ?_, hv.default⟩, rfl⟩
    · unfold Memory.plain
      simp only [List.map_set]
      congr 2
    · intro x hx
      rcases List.mem_or_eq_of_mem_set hx with hx | rfl
      · exact hv.events x hx
      · exact ⟨h2, h3⟩

theorem create_spec {m : Memory} (hv : m.Valid) {s : MemSpec} (hs : s.Valid m) :
    (m.create s).plain = { m.plain with events := m.plain.events ++ [⟨m.catsAt s.cats, m.ruleAt s.rule, m.attsAt s.atts⟩] } ∧
    (m.create s).Valid ∧ (m.create s).lists = m.lists := by
  unfold Memory.create
  refine ⟨?_, ⟨hv.specs, ?_, hv.default⟩, rfl⟩
  · unfold Memory.plain
    simp only [List.map_append, List.map_cons, List.map_nil]
    rfl
  · intro o ho
    rcases List.mem_append.1 ho with ho | ho
    · exact hv.events o ho
    · rw [List.mem_singleton] at ho
      subst ho
      exact ⟨hs.1, hs.2.1⟩

theorem setOn_value {m : Memory} (s : MemSpec) (o : MemEvent) :
    m.eventValue (m.setOn s o) = (m.specValue s).on (m.eventValue o) := by
  unfold Memory.eventValue Memory.setOn PlainSpec.on Memory.specValue
  congr 1
  · simp only []
    split
    · rfl
    · rename_i h; exact Decidable.not_not.1 h
  · simp only []
    split
    · rfl
    · rename_i h; exact Decidable.not_not.1 h

theorem setOn_valid {m : Memory} (hv : m.Valid) {s : MemSpec} (hs : s.Valid m) (o : MemEvent) (ho : o ∈ m.events) :
    (m.setOn s o).cats < m.sets.length ∧ ∀ r, (m.setOn s o).rule = some r → r < m.rules.length := by
  obtain ⟨h1, h2⟩ := hv.events o ho
  unfold Memory.setOn
  simp only []
  refine ⟨?_, ?_⟩
  · split
    · exact hs.1
    · exact h1
  · split
    · exact hs.2.1
    · exact h2

/-! ### without changes in place -/

/-- What holds of the memory in every history without `append`. -/
structure Memory.Good (m : Memory) : Prop where
  valid : m.Valid
  default : m.lists[0]? = some []

theorem step_copies {m : Memory} (hm : m.Good) (op : MemOp) (hop : ¬ InPlace op) :
    (m.step op).plain = m.plain.step op ∧ (m.step op).Good := by
  obtain ⟨hv, hd⟩ := hm
  unfold Memory.step PlainMemory.step
  cases op with
  | spec c r a =>
    have h := newSpec_spec hv hd c r a
    have hp : m.plain.step? (.spec c r a) =
        (PlainMemory.made m.plain c r a).map (fun x => { m.plain with specs := m.plain.specs ++ [x] }) := by
      unfold PlainMemory.made PlainMemory.step?
      simp only []
      cases c.elim (some ∅) m.plain.cats <;> simp only [Option.bind_none, Option.bind_some, Option.map_none]
      cases r.elim (some none) m.plain.rule <;> simp only [Option.bind_none, Option.bind_some, Option.map_none]
      cases a.elim (some []) m.plain.atts <;> rfl
    rw [hp]
    unfold Memory.step?
    simp only []
    cases hx : PlainMemory.made m.plain c r a with
    | none =>
      rw [hx] at h
      simp only [] at h
      rw [h]
      exact ⟨rfl, hv, hd⟩
    | some v =>
      rw [hx] at h
      obtain ⟨m', s, h1, h2, h3, h4⟩ := h
      have hv' := h2.valid hv
      rw [h1]
      simp only [Option.map_some, Option.getD_some]
      refine ⟨?_, ⟨fun x hx => ?_, hv'.events, hv'.default⟩, h2.default hd⟩
      · rw [← h2.plain hv, ← h4]
        unfold Memory.plain
        simp only [List.map_append, List.map_cons, List.map_nil]
        rfl
      · rcases List.mem_append.1 hx with hx | hx
        · exact hv'.specs x hx
        · rw [List.mem_singleton] at hx; subst hx; exact h3
  | create s =>
    unfold Memory.step? PlainMemory.step?
    simp only []
    have hp : m.plain.specs = m.specs.map m.specValue := rfl
    simp only [hp, List.getElem?_map]
    cases hs : m.specs[s]? with
    | none => exact ⟨rfl, hv, hd⟩
    | some x =>
      obtain ⟨h1, h2, h3⟩ := create_spec hv (hv.specs x (List.mem_of_getElem? hs))
      simp only [Option.map_some, Option.getD_some]
      exact ⟨h1, h2, h3 ▸ hd⟩
  | apply s e =>
    unfold Memory.step? PlainMemory.step?
    simp only []
    have hp : m.plain.specs = m.specs.map m.specValue := rfl
    simp only [hp, List.getElem?_map]
    cases hs : m.specs[s]? with
    | none => exact ⟨rfl, hv, hd⟩
    | some x =>
      have hx := hv.specs x (List.mem_of_getElem? hs)
      simp only [Option.map_some, Option.bind_some]
      have h := onEvent_spec hv e (m.setOn x) (m.specValue x).on
        (fun o ho => ⟨setOn_value x o, setOn_valid hv hx o ho⟩)
      cases hq : m.plain.onEvent e (m.specValue x).on with
      | none => rw [hq] at h; simp only [] at h; rw [h]; exact ⟨rfl, hv, hd⟩
      | some p =>
        rw [hq] at h
        obtain ⟨m', h1, h2, h3, h4⟩ := h
        rw [h1]
        exact ⟨h2, h3, h4 ▸ hd⟩
  | importNew c r a =>
    unfold Memory.step? PlainMemory.step?
    simp only []
    have h := newSpec_spec hv hd (some (.new c)) (r.map .new) (a.map .new)
    have hx : PlainMemory.made m.plain (some (.new c)) (r.map .new) (a.map .new) = some ⟨c, r, a.getD []⟩ := by
      unfold PlainMemory.made; cases r <;> cases a <;> rfl
    rw [hx] at h
    obtain ⟨m', s, h1, h2, h3, h4⟩ := h
    rw [h1]
    simp only [Option.map_some, Option.getD_some]
    obtain ⟨g1, g2, g3⟩ := create_spec (h2.valid hv) h3
    have hs : PlainSpec.mk (m'.catsAt s.cats) (m'.ruleAt s.rule) (m'.attsAt s.atts) = ⟨c, r, a.getD []⟩ := h4
    injection hs with e1 e2 e3
    refine ⟨?_, g2, by rw [g3]; exact h2.default hd⟩
    rw [g1, e1, e2, e3, h2.plain hv]
  | importOld e c r a =>
    unfold Memory.step? PlainMemory.step?
    simp only []
    have h := newSpec_spec hv hd (some (.new c)) (r.map .new) (a.map .new)
    have hx : PlainMemory.made m.plain (some (.new c)) (r.map .new) (a.map .new) = some ⟨c, r, a.getD []⟩ := by
      unfold PlainMemory.made; cases r <;> cases a <;> rfl
    rw [hx] at h
    obtain ⟨m', s, h1, h2, h3, h4⟩ := h
    rw [h1]
    simp only [Option.bind_some]
    have hv' := h2.valid hv
    have h := onEvent_spec hv' e (m'.setOn s) (PlainSpec.on ⟨c, r, a.getD []⟩)
      (fun o ho => ⟨by rw [setOn_value s o, h4], setOn_valid hv' h3 o ho⟩)
    rw [h2.plain hv] at h
    cases hq : m.plain.onEvent e (PlainSpec.on ⟨c, r, a.getD []⟩) with
    | none => rw [hq] at h; simp only [] at h; rw [h]; exact ⟨rfl, hv, hd⟩
    | some p =>
      rw [hq] at h
      obtain ⟨m2, g1, g2, g3, g4⟩ := h
      rw [g1]
      exact ⟨g2, g3, by rw [Option.getD_some, g4]; exact h2.default hd⟩
  | assignCats e x =>
    unfold Memory.step? PlainMemory.step?
    simp only []
    have h := giveCats_spec hv (some x)
    simp only [Option.elim] at h
    cases hx : m.plain.cats x with
    | none => rw [hx] at h; simp only [] at h; rw [h]; exact ⟨rfl, hv, hd⟩
    | some v =>
      rw [hx] at h
      obtain ⟨m', r, h1, h2, h3, h4⟩ := h
      rw [h1]
      simp only [Option.bind_some]
      have hv' := h2.valid hv
      have h := onEvent_spec hv' e (fun o => { o with cats := r }) (fun o => { o with cats := v })
        (fun o ho => ⟨by unfold Memory.eventValue; rw [h4], h3, (hv'.events o ho).2⟩)
      rw [h2.plain hv] at h
      cases hq : m.plain.onEvent e (fun o => { o with cats := v }) with
      | none => rw [hq] at h; simp only [] at h; rw [h]; exact ⟨rfl, hv, hd⟩
      | some p =>
        rw [hq] at h
        obtain ⟨m2, g1, g2, g3, g4⟩ := h
        rw [g1]
        exact ⟨g2, g3, by rw [Option.getD_some, g4]; exact h2.default hd⟩
  | assignRule e x =>
    unfold Memory.step? PlainMemory.step?
    simp only []
    have h := giveRule_spec hv x
    cases hx : x.elim (some none) m.plain.rule with
    | none => rw [hx] at h; simp only [] at h; rw [h]; exact ⟨rfl, hv, hd⟩
    | some v =>
      rw [hx] at h
      obtain ⟨m', r, h1, h2, h3, h4⟩ := h
      rw [h1]
      simp only [Option.bind_some]
      have hv' := h2.valid hv
      have h := onEvent_spec hv' e (fun o => { o with rule := r }) (fun o => { o with rule := v })
        (fun o ho => ⟨by unfold Memory.eventValue; rw [h4], (hv'.events o ho).1, h3⟩)
      rw [h2.plain hv] at h
      cases hq : m.plain.onEvent e (fun o => { o with rule := v }) with
      | none => rw [hq] at h; simp only [] at h; rw [h]; exact ⟨rfl, hv, hd⟩
      | some p =>
        rw [hq] at h
        obtain ⟨m2, g1, g2, g3, g4⟩ := h
        rw [g1]
        exact ⟨g2, g3, by rw [Option.getD_some, g4]; exact h2.default hd⟩
  | changeCats e v => exact absurd trivial hop
  | changeRule e v => exact absurd trivial hop
  | append s x => exact absurd trivial hop

theorem start_good : startMemory.Good :=
  ⟨⟨(fun s hs => by cases hs), (fun o ho => by cases ho), by decide⟩, rfl⟩


/-! ### changes in place -/


/-- No two events share a set or a rule, no two specifications do, and no event shares one with a specification that was
not used yet. -/
structure Sep (specs : List MemSpec) (events : List MemEvent) (used : List Nat) : Prop where
  events_cats : ∀ (i j : Nat) (o o' : MemEvent), events[i]? = some o → events[j]? = some o' → o.cats = o'.cats → i = j
  events_rule : ∀ (i j : Nat) (o o' : MemEvent) (r : Nat), events[i]? = some o → events[j]? = some o' → o.rule = some r →
    o'.rule = some r → i = j
  specs_cats : ∀ (i j : Nat) (s s' : MemSpec), specs[i]? = some s → specs[j]? = some s' → s.cats = s'.cats → i = j
  specs_rule : ∀ (i j : Nat) (s s' : MemSpec) (r : Nat), specs[i]? = some s → specs[j]? = some s' → s.rule = some r → s'.rule = some r → i = j
  unused_cats : ∀ (i : Nat) (s : MemSpec) (e : Nat) (o : MemEvent), i ∉ used → specs[i]? = some s → events[e]? = some o → o.cats ≠ s.cats
  unused_rule : ∀ (i : Nat) (s : MemSpec) (e : Nat) (o : MemEvent) (r : Nat), i ∉ used → specs[i]? = some s → events[e]? = some o →
    s.rule = some r → o.rule ≠ some r

theorem Sep.put {specs : List MemSpec} {events events' : List MemEvent} {used more : List Nat} (h : Sep specs events used)
    (e : Nat) (x : MemEvent) (hx : ∀ i, events'[i]? = if i = e then some x else events[i]?)
    (hc : ∀ i o, i ≠ e → events[i]? = some o → o.cats ≠ x.cats)
    (hr : ∀ i o r, i ≠ e → events[i]? = some o → x.rule = some r → o.rule ≠ some r)
    (hsc : ∀ i s, i ∉ used ++ more → specs[i]? = some s → x.cats ≠ s.cats)
    (hsr : ∀ i s r, i ∉ used ++ more → specs[i]? = some s → s.rule = some r → x.rule ≠ some r) :
    Sep specs events' (used ++ more) := by
  refine ⟨?_, ?_, h.specs_cats, h.specs_rule, ?_, ?_⟩
  · intro i j o o' hi hj heq
    rw [hx] at hi hj
    by_cases h1 : i = e <;> by_cases h2 : j = e
    · omega
    · rw [if_pos h1] at hi; rw [if_neg h2] at hj
      injection hi with hi; subst hi
      exact absurd heq.symm (hc j o' h2 hj)
    · rw [if_neg h1] at hi; rw [if_pos h2] at hj
      injection hj with hj; subst hj
      exact absurd heq (hc i o h1 hi)
    · rw [if_neg h1] at hi; rw [if_neg h2] at hj
      exact h.events_cats i j o o' hi hj heq
  · intro i j o o' r hi hj g1 g2
    rw [hx] at hi hj
    by_cases h1 : i = e <;> by_cases h2 : j = e
    · omega
    · rw [if_pos h1] at hi; rw [if_neg h2] at hj
      injection hi with hi; subst hi
      exact absurd g2 (hr j o' r h2 hj g1)
    · rw [if_neg h1] at hi; rw [if_pos h2] at hj
      injection hj with hj; subst hj
      exact absurd g1 (hr i o r h1 hi g2)
    · rw [if_neg h1] at hi; rw [if_neg h2] at hj
      exact h.events_rule i j o o' r hi hj g1 g2
  · intro i s k o hi hs ho
    rw [hx] at ho
    by_cases h1 : k = e
    · rw [if_pos h1] at ho; injection ho with ho; subst ho
      exact hsc i s hi hs
    · rw [if_neg h1] at ho
      exact h.unused_cats i s k o (fun h' => hi (List.mem_append_left _ h')) hs ho
  · intro i s k o r hi hs ho
    rw [hx] at ho
    by_cases h1 : k = e
    · rw [if_pos h1] at ho; injection ho with ho; subst ho
      exact hsr i s r hi hs
    · rw [if_neg h1] at ho
      exact h.unused_rule i s k o r (fun h' => hi (List.mem_append_left _ h')) hs ho

theorem Sep.spec {specs : List MemSpec} {events : List MemEvent} {used : List Nat} (h : Sep specs events used)
    (x : MemSpec) (hc : ∀ s ∈ specs, s.cats ≠ x.cats) (hr : ∀ s ∈ specs, ∀ r, x.rule = some r → s.rule ≠ some r)
    (hec : ∀ o ∈ events, o.cats ≠ x.cats) (her : ∀ o ∈ events, ∀ r, x.rule = some r → o.rule ≠ some r) :
    Sep (specs ++ [x]) events used := by
  have look : ∀ i s, (specs ++ [x])[i]? = some s → specs[i]? = some s ∨ (i = specs.length ∧ s = x) := by
    intro i s hs
    rcases Nat.lt_or_ge i specs.length with hl | hl
    · rw [List.getElem?_append_left hl] at hs; exact Or.inl hs
    · rw [List.getElem?_append_right hl] at hs
      rcases Nat.eq_zero_or_pos (i - specs.length) with h0 | h0
      · rw [h0] at hs
        injection hs with hs
        exact Or.inr ⟨by omega, hs.symm⟩
      · rw [List.getElem?_eq_none (by simp only [List.length_singleton]; omega)] at hs; cases hs
  refine ⟨h.events_cats, h.events_rule, ?_, ?_, ?_, ?_⟩
  · intro i j s s' hi hj heq
    rcases look i s hi with ki | ⟨h1, rfl⟩ <;> rcases look j s' hj with kj | ⟨h2, h3⟩
    · exact h.specs_cats i j s s' ki kj heq
    · subst h3; exact absurd heq (hc s (List.mem_of_getElem? ki))
    · exact absurd heq.symm (hc s' (List.mem_of_getElem? kj))
    · omega
  · intro i j s s' r hi hj g1 g2
    rcases look i s hi with ki | ⟨h1, rfl⟩ <;> rcases look j s' hj with kj | ⟨h2, h3⟩
    · exact h.specs_rule i j s s' r ki kj g1 g2
    · subst h3; exact absurd g1 (hr s (List.mem_of_getElem? ki) r g2)
    · exact absurd g2 (hr s' (List.mem_of_getElem? kj) r g1)
    · omega
  · intro i s e o hi hs ho
    rcases look i s hs with hs | ⟨_, rfl⟩
    · exact h.unused_cats i s e o hi hs ho
    · exact hec o (List.mem_of_getElem? ho)
  · intro i s e o r hi hs ho g
    rcases look i s hs with hs | ⟨_, rfl⟩
    · exact h.unused_rule i s e o r hi hs ho g
    · exact her o (List.mem_of_getElem? ho) r g

/-- The separation of a memory. -/
def Memory.Apart (m : Memory) (used : List Nat) : Prop := m.Good ∧ Sep m.specs m.events used

theorem look_append {α : Type} (l : List α) (x : α) (i : Nat) :
    (l ++ [x])[i]? = if i = l.length then some x else l[i]? := by
  by_cases h : i = l.length
  · rw [if_pos h, h, List.getElem?_append_right (Nat.le_refl _)]; simp
  · rw [if_neg h]
    rcases Nat.lt_or_ge i l.length with hl | hl
    · rw [List.getElem?_append_left hl]
    · rw [List.getElem?_append_right hl, List.getElem?_eq_none (by simp only [List.length_singleton]; omega),
        List.getElem?_eq_none hl]

theorem look_set {α : Type} {l : List α} {x : α} {e : Nat} {o : α} (h : l[e]? = some o) (i : Nat) :
    (l.set e x)[i]? = if i = e then some x else l[i]? := by
  by_cases hi : i = e
  · rw [if_pos hi, hi, List.getElem?_set_self (List.getElem?_eq_some_iff.1 h).1]
  · rw [if_neg hi, List.getElem?_set_ne (fun h' => hi h'.symm)]

/-- The references of a specification made of new objects are new. -/
theorem newSpec_new {m m' : Memory} {c : Option (Given (Finset String))} {r : Option (Given Rule)}
    {a : Option (Given (List Invitation))} {s : MemSpec} (hc : IsNew c) (hr : IsNew r)
    (h : m.newSpec c r a = some (m', s)) : s.cats = m.sets.length ∧ ∀ x, s.rule = some x → x = m.rules.length := by
  have h1 : ∃ m1, m.giveCats c = some (m1, m.sets.length) ∧ m1.rules = m.rules := by
    match c, hc with
    | none, _ => exact ⟨_, rfl, rfl⟩
    | some (.new v), _ => exact ⟨_, rfl, rfl⟩
  obtain ⟨m1, h1, g1⟩ := h1
  have h2 : ∃ m2 y, m1.giveRule r = some (m2, y) ∧ ∀ x, y = some x → x = m1.rules.length := by
    match r, hr with
    | none, _ => exact ⟨_, _, rfl, fun x hx => by cases hx⟩
    | some (.new v), _ => exact ⟨_, _, rfl, fun x hx => by injection hx with hx; exact hx.symm⟩
  obtain ⟨m2, y, h2, g2⟩ := h2
  unfold Memory.newSpec at h
  rw [h1] at h
  simp only [Option.bind_some] at h
  rw [h2] at h
  simp only [Option.bind_some] at h
  cases h3 : m2.giveAtts a with
  | none => rw [h3] at h; cases h
  | some z =>
    rw [h3] at h
    injection h with h
    injection h with _ h
    subst h
    exact ⟨rfl, fun x hx => g1 ▸ g2 x hx⟩

/-- Two states agree, except perhaps on specifications already used. -/
def PlainMemory.Agree (used : List Nat) (p q : PlainMemory) : Prop :=
  p.events = q.events ∧ p.specs.length = q.specs.length ∧ ∀ s, s ∉ used → p.specs[s]? = q.specs[s]?

theorem agree_onEvent {used : List Nat} {p q : PlainMemory} (h : PlainMemory.Agree used p q) (e : Nat) (f : PlainEvent → PlainEvent) :
    PlainMemory.Agree used ((p.onEvent e f).getD p) ((q.onEvent e f).getD q) := by
  obtain ⟨h1, h2, h3⟩ := h
  unfold PlainMemory.onEvent
  rw [h1]
  cases q.events[e]? with
  | none => exact ⟨h1, h2, h3⟩
  | some o => exact ⟨by simp only [Option.map_some, Option.getD_some], h2, h3⟩

theorem agree_weaken {used more : List Nat} {p q : PlainMemory} (h : PlainMemory.Agree used p q) : PlainMemory.Agree (used ++ more) p q :=
  ⟨h.1, h.2.1, fun s hs => h.2.2 s (fun h' => hs (List.mem_append_left _ h'))⟩

/-- Calls that pass new objects and unused specifications do the same in two states that agree. -/
theorem agree_step {used : List Nat} {p q : PlainMemory} (h : PlainMemory.Agree used p q) (op : MemOp) (hp : PassesNew op)
    (hu : ∀ s ∈ transfers op, s ∉ used) : PlainMemory.Agree used (p.step op) (q.step op) := by
  obtain ⟨h1, h2, h3⟩ := h
  unfold PlainMemory.step
  cases op with
  | spec c r a =>
    obtain ⟨n1, n2, n3⟩ := hp
    have hc : ∃ cv, ∀ x : PlainMemory, c.elim (some ∅) x.cats = some cv := by
      match c, n1 with
      | none, _ => exact ⟨∅, fun _ => rfl⟩
      | some (.new v), _ => exact ⟨v, fun _ => rfl⟩
    have hr : ∃ rv, ∀ x : PlainMemory, r.elim (some none) x.rule = some rv := by
      match r, n2 with
      | none, _ => exact ⟨none, fun _ => rfl⟩
      | some (.new v), _ => exact ⟨some v, fun _ => rfl⟩
    have ha : ∃ av, ∀ x : PlainMemory, a.elim (some []) x.atts = some av := by
      match a, n3 with
      | none, _ => exact ⟨[], fun _ => rfl⟩
      | some (.new v), _ => exact ⟨v, fun _ => rfl⟩
    obtain ⟨cv, hc⟩ := hc
    obtain ⟨rv, hr⟩ := hr
    obtain ⟨av, ha⟩ := ha
    unfold PlainMemory.step?
    simp only [hc, hr, ha, Option.bind_some, Option.map_some, Option.getD_some]
    refine ⟨h1, by simp [h2], fun s hs => ?_⟩
    have := h3 s hs
    simp only []
    rcases Nat.lt_or_ge s p.specs.length with hl | hl
    · rw [List.getElem?_append_left hl, List.getElem?_append_left (h2 ▸ hl), this]
    · rw [List.getElem?_append_right hl, List.getElem?_append_right (h2 ▸ hl), h2]
  | create s =>
    unfold PlainMemory.step?
    simp only []
    rw [h3 s (hu s (List.mem_singleton.2 rfl))]
    cases q.specs[s]? with
    | none => exact ⟨h1, h2, h3⟩
    | some x => exact ⟨by simp only [Option.map_some, Option.getD_some, h1], h2, h3⟩
  | apply s e =>
    unfold PlainMemory.step?
    simp only []
    rw [h3 s (hu s (List.mem_singleton.2 rfl))]
    cases q.specs[s]? with
    | none => exact ⟨h1, h2, h3⟩
    | some x => exact agree_onEvent ⟨h1, h2, h3⟩ e _
  | importNew c r a =>
    unfold PlainMemory.step?
    exact ⟨by simp only [Option.getD_some, h1], h2, h3⟩
  | importOld e c r a => exact agree_onEvent ⟨h1, h2, h3⟩ e _
  | assignCats e x =>
    match x, hp with
    | .new v, _ => exact agree_onEvent ⟨h1, h2, h3⟩ e _
  | assignRule e x =>
    match x, hp with
    | none, _ => exact agree_onEvent ⟨h1, h2, h3⟩ e _
    | some (.new v), _ => exact agree_onEvent ⟨h1, h2, h3⟩ e _
  | changeCats e v => exact agree_onEvent ⟨h1, h2, h3⟩ e _
  | changeRule e v => exact agree_onEvent ⟨h1, h2, h3⟩ e _
  | append s x => exact absurd hp id

theorem agree_trans {used : List Nat} {p q r : PlainMemory} (h : PlainMemory.Agree used p q) (h' : PlainMemory.Agree used q r) :
    PlainMemory.Agree used p r :=
  ⟨h.1.trans h'.1, h.2.1.trans h'.2.1, fun s hs => (h.2.2 s hs).trans (h'.2.2 s hs)⟩

theorem agree_refl (used : List Nat) (p : PlainMemory) : PlainMemory.Agree used p p := ⟨rfl, rfl, fun _ _ => rfl⟩

/-- Changing the categories of an event in place, if nobody shares them. -/
theorem changeCats_agree {m : Memory} {used : List Nat} (h : m.Apart used) (e : Nat) (v : Finset String) :
    (m.step (.changeCats e v)).Apart used ∧
    PlainMemory.Agree used (m.step (.changeCats e v)).plain (m.plain.step (.changeCats e v)) := by
  obtain ⟨⟨hv, hd⟩, hs⟩ := h
  unfold Memory.step PlainMemory.step Memory.step? PlainMemory.step? PlainMemory.onEvent
  have hp : m.plain.events = m.events.map m.eventValue := rfl
  simp only [hp, List.getElem?_map]
  cases he : m.events[e]? with
  | none => exact ⟨⟨⟨hv, hd⟩, hs⟩, agree_refl _ _⟩
  | some o =>
    have hlt := (hv.events o (List.mem_of_getElem? he)).1
    simp only [Option.map_some, Option.getD_some]
    refine ⟨⟨⟨⟨?_, ?_, hv.default⟩, hd⟩, hs⟩, ?_, by simp [Memory.plain], ?_⟩
    · intro s hs; simpa using hv.specs s hs
    · intro s hs; simpa using hv.events s hs
    · refine List.ext_getElem? (fun j => ?_)
      unfold Memory.plain
      simp only [List.getElem?_map, List.getElem?_set, List.length_map]
      have hel : e < m.events.length := (List.getElem?_eq_some_iff.1 he).1
      by_cases hj : e = j
      · subst hj
        rw [if_pos rfl, if_pos hel, he]
        simp only [Option.map_some]
        unfold Memory.eventValue Memory.catsAt
        simp only []
        rw [List.getElem?_set_self hlt]
        rfl
      · rw [if_neg hj]
        cases hx : m.events[j]? with
        | none => rfl
        | some x =>
          simp only [Option.map_some]
          unfold Memory.eventValue Memory.catsAt
          simp only []
          rw [List.getElem?_set_ne (fun h' => hj (hs.events_cats e j o x he hx h'))]
          rfl
    · intro i hi
      unfold Memory.plain
      simp only [List.getElem?_map]
      cases hx : m.specs[i]? with
      | none => rfl
      | some x =>
        simp only [Option.map_some]
        unfold Memory.specValue Memory.catsAt
        simp only []
        rw [List.getElem?_set_ne (fun h' => hs.unused_cats i x e o hi hx he h')]
        rfl

/-- Changing the rule of an event in place, if nobody shares it. -/
theorem changeRule_agree {m : Memory} {used : List Nat} (h : m.Apart used) (e : Nat) (v : Rule) :
    (m.step (.changeRule e v)).Apart used ∧
    PlainMemory.Agree used (m.step (.changeRule e v)).plain (m.plain.step (.changeRule e v)) := by
  obtain ⟨⟨hv, hd⟩, hs⟩ := h
  unfold Memory.step PlainMemory.step Memory.step? PlainMemory.step? PlainMemory.onEvent
  have hp : m.plain.events = m.events.map m.eventValue := rfl
  simp only [hp, List.getElem?_map]
  cases he : m.events[e]? with
  | none => exact ⟨⟨⟨hv, hd⟩, hs⟩, agree_refl _ _⟩
  | some o =>
    have hel : e < m.events.length := (List.getElem?_eq_some_iff.1 he).1
    simp only [Option.bind_some, Option.map_some, Option.getD_some]
    cases hr : o.rule with
    | none =>
      simp only [Option.map_none, Option.getD_none]
      refine ⟨⟨⟨hv, hd⟩, hs⟩, ?_, rfl, fun _ _ => rfl⟩
      refine List.ext_getElem? (fun j => ?_)
      simp only [hp, List.getElem?_map, List.getElem?_set, List.length_map]
      by_cases hj : e = j
      · subst hj
        rw [if_pos rfl, if_pos hel, he]
        simp only [Option.map_some]
        unfold Memory.eventValue
        rw [hr]
        rfl
      · rw [if_neg hj]
    | some r =>
      have hlt := (hv.events o (List.mem_of_getElem? he)).2 r hr
      simp only [Option.map_some, Option.getD_some]
      refine ⟨⟨⟨⟨?_, ?_, hv.default⟩, hd⟩, hs⟩, ?_, by simp [Memory.plain], ?_⟩
      · intro s hs; simpa using hv.specs s hs
      · intro s hs; simpa using hv.events s hs
      · refine List.ext_getElem? (fun j => ?_)
        unfold Memory.plain
        simp only [List.getElem?_map, List.getElem?_set, List.length_map]
        by_cases hj : e = j
        · subst hj
          rw [if_pos rfl, if_pos hel, he]
          simp only [Option.map_some]
          unfold Memory.eventValue Memory.ruleAt
          simp only [hr, Option.bind_some]
          rw [List.getElem?_set_self hlt, List.getElem?_eq_getElem hlt]
          rfl
        · rw [if_neg hj]
          cases hx : m.events[j]? with
          | none => rfl
          | some x =>
            simp only [Option.map_some]
            unfold Memory.eventValue Memory.ruleAt
            simp only []
            cases hxr : x.rule with
            | none => rfl
            | some y =>
              simp only [Option.bind_some]
              rw [List.getElem?_set_ne (fun (h' : r = y) => hj (hs.events_rule e j o x r he hx hr (by rw [h']; exact hxr)))]
              rfl
      · intro i hi
        unfold Memory.plain
        simp only [List.getElem?_map]
        cases hx : m.specs[i]? with
        | none => rfl
        | some x =>
          simp only [Option.map_some]
          unfold Memory.specValue Memory.ruleAt
          simp only []
          cases hxr : x.rule with
          | none => rfl
          | some y =>
            simp only [Option.bind_some]
            rw [List.getElem?_set_ne (fun (h' : r = y) => hs.unused_rule i x e o r hi hx he (by rw [h']; exact hxr) hr)]
            rfl

theorem Sep.weaken {specs : List MemSpec} {events : List MemEvent} {used : List Nat} (h : Sep specs events used)
    (more : List Nat) : Sep specs events (used ++ more) :=
  ⟨h.events_cats, h.events_rule, h.specs_cats, h.specs_rule,
    fun i s e o hi => h.unused_cats i s e o (fun h' => hi (List.mem_append_left _ h')),
    fun i s e o r hi => h.unused_rule i s e o r (fun h' => hi (List.mem_append_left _ h'))⟩

theorem newSpec_ext {m m' : Memory} (hm : m.Good) {c : Option (Given (Finset String))} {r : Option (Given Rule)}
    {a : Option (Given (List Invitation))} {s : MemSpec} (h : m.newSpec c r a = some (m', s)) : m.Ext m' := by
  have h1 := newSpec_spec hm.1 hm.2 c r a
  cases hx : PlainMemory.made m.plain c r a with
  | none => rw [hx] at h1; simp only [] at h1; rw [h1] at h; cases h
  | some v =>
    rw [hx] at h1
    obtain ⟨m2, s2, g1, g2, _⟩ := h1
    rw [g1] at h
    injection h with h
    injection h with h _
    exact h ▸ g2

/-- What keeps the separation when event `e` gets `x` in place of `o`: each attribute is that of `o`, or new, or that of
a specification counted as used from now on. -/
theorem Sep.change {m : Memory} {used more : List Nat} (hv : m.Valid) (hs : Sep m.specs m.events used)
    {e : Nat} {events' : List MemEvent} (x : MemEvent)
    (hx : ∀ i, events'[i]? = if i = e then some x else m.events[i]?)
    (hc : (∃ o, m.events[e]? = some o ∧ x.cats = o.cats) ∨ m.sets.length ≤ x.cats ∨
      ∃ k s, k ∉ used ∧ k ∈ more ∧ m.specs[k]? = some s ∧ x.cats = s.cats)
    (hr : ∀ r, x.rule = some r → (∃ o, m.events[e]? = some o ∧ o.rule = some r) ∨ m.rules.length ≤ r ∨
      ∃ k s, k ∉ used ∧ k ∈ more ∧ m.specs[k]? = some s ∧ s.rule = some r) :
    Sep m.specs events' (used ++ more) := by
  refine hs.put e x hx ?_ ?_ ?_ ?_
  · intro i o hi ho heq
    rcases hc with ⟨o', h1, h2⟩ | h1 | ⟨k, s, h1, _, h3, h4⟩
    · exact hi (hs.events_cats i e o o' ho h1 (heq.trans h2))
    · have := (hv.events o (List.mem_of_getElem? ho)).1; omega
    · exact hs.unused_cats k s i o h1 h3 ho (heq.trans h4)
  · intro i o r hi ho hxr hor
    rcases hr r hxr with ⟨o', h1, h2⟩ | h1 | ⟨k, s, h1, _, h3, h4⟩
    · exact hi (hs.events_rule i e o o' r ho h1 hor h2)
    · have := (hv.events o (List.mem_of_getElem? ho)).2 r hor; omega
    · exact hs.unused_rule k s i o r h1 h3 ho h4 hor
  · intro i s' hi hs' heq
    rcases hc with ⟨o', h1, h2⟩ | h1 | ⟨k, s, h1, h2, h3, h4⟩
    · exact hs.unused_cats i s' e o' (fun h' => hi (List.mem_append_left _ h')) hs' h1 (h2.symm.trans heq)
    · have := (hv.specs s' (List.mem_of_getElem? hs')).1; omega
    · have := hs.specs_cats i k s' s hs' h3 (heq.symm.trans h4)
      exact hi (List.mem_append_right _ (this ▸ h2))
  · intro i s' r hi hs' hsr hxr
    rcases hr r hxr with ⟨o', h1, h2⟩ | h1 | ⟨k, s, h1, h2, h3, h4⟩
    · exact hs.unused_rule i s' e o' r (fun h' => hi (List.mem_append_left _ h')) hs' h1 hsr h2
    · have := (hv.specs s' (List.mem_of_getElem? hs')).2.1 r hsr; omega
    · have := hs.specs_rule i k s' s r hs' h3 hsr h4
      exact hi (List.mem_append_right _ (this ▸ h2))

/-- `setOn` keeps each attribute or takes that of the specification. -/
theorem setOn_refs (m : Memory) (s : MemSpec) (o : MemEvent) :
    ((m.setOn s o).cats = o.cats ∨ (m.setOn s o).cats = s.cats) ∧
    ((m.setOn s o).rule = o.rule ∨ (m.setOn s o).rule = s.rule) := by
  unfold Memory.setOn
  simp only []
  exact ⟨by split <;> simp, by split <;> simp⟩

/-- The separation is kept by calls that pass new objects and specifications not used before. -/
theorem sep_step {m : Memory} {used : List Nat} (h : m.Apart used) (op : MemOp) (hn : ¬ InPlace op)
    (hp : PassesNew op) (hu : ∀ s ∈ transfers op, s ∉ used) :
    Sep (m.step op).specs (m.step op).events (used ++ transfers op) := by
  obtain ⟨hg, hs⟩ := h
  have hv := hg.1
  unfold Memory.step
  cases op with
  | spec c r a =>
    unfold Memory.step?
    simp only []
    cases hx : m.newSpec c r a with
    | none => exact hs.weaken _
    | some y =>
      obtain ⟨m', s⟩ := y
      obtain ⟨g1, g2⟩ := newSpec_new hp.1 hp.2.1 hx
      have he := newSpec_ext hg hx
      simp only [Option.map_some, Option.getD_some]
      rw [he.specs, he.events]
      refine (Sep.spec hs s ?_ ?_ ?_ ?_).weaken _
      · intro s' hs' h'; have := (hv.specs s' hs').1; omega
      · intro s' hs' r' hr' h'; have := (hv.specs s' hs').2.1 r' h'; have := g2 r' hr'; omega
      · intro o ho h'; have := (hv.events o ho).1; omega
      · intro o ho r' hr' h'; have := (hv.events o ho).2 r' h'; have := g2 r' hr'; omega
  | create s =>
    unfold Memory.step?
    simp only []
    cases hx : m.specs[s]? with
    | none => exact hs.weaken _
    | some x =>
      simp only [Option.map_some, Option.getD_some]
      unfold Memory.create
      have hsu := hu s (List.mem_singleton.2 rfl)
      refine Sep.change hv hs (e := m.events.length) ⟨x.cats, x.rule, m.attsAt x.atts⟩ (look_append _ _) ?_ ?_
      · exact Or.inr (Or.inr ⟨s, x, hsu, List.mem_singleton.2 rfl, hx, rfl⟩)
      · exact fun r hr => Or.inr (Or.inr ⟨s, x, hsu, List.mem_singleton.2 rfl, hx, hr⟩)
  | apply s e =>
    unfold Memory.step? Memory.onEvent
    simp only []
    cases hx : m.specs[s]? with
    | none => exact hs.weaken _
    | some x =>
      simp only [Option.bind_some]
      cases ho : m.events[e]? with
      | none => exact hs.weaken _
      | some o =>
        simp only [Option.map_some, Option.getD_some]
        have hsu := hu s (List.mem_singleton.2 rfl)
        obtain ⟨q1, q2⟩ := setOn_refs m x o
        refine Sep.change hv hs (e := e) (m.setOn x o) (look_set ho) ?_ ?_
        · rcases q1 with q1 | q1
          · exact Or.inl ⟨o, ho, q1⟩
          · exact Or.inr (Or.inr ⟨s, x, hsu, List.mem_singleton.2 rfl, hx, q1⟩)
        · intro r hr
          rcases q2 with q2 | q2
          · exact Or.inl ⟨o, ho, q2 ▸ hr⟩
          · exact Or.inr (Or.inr ⟨s, x, hsu, List.mem_singleton.2 rfl, hx, q2 ▸ hr⟩)
  | importNew c r a =>
    unfold Memory.step?
    simp only []
    cases hx : m.newSpec (some (.new c)) (r.map .new) (a.map .new) with
    | none => exact hs.weaken _
    | some y =>
      obtain ⟨m', s⟩ := y
      obtain ⟨g1, g2⟩ := newSpec_new (c := some (.new c)) trivial (by cases r <;> trivial) hx
      have he := newSpec_ext hg hx
      simp only [Option.map_some, Option.getD_some]
      unfold Memory.create
      simp only []
      rw [he.specs, he.events]
      refine Sep.change hv hs (e := m.events.length) ⟨s.cats, s.rule, m'.attsAt s.atts⟩ (look_append _ _) ?_ ?_
      · exact Or.inr (Or.inl (Nat.le_of_eq g1.symm))
      · exact fun r hr => Or.inr (Or.inl (Nat.le_of_eq (g2 r hr).symm))
  | importOld e c r a =>
    unfold Memory.step? Memory.onEvent
    simp only []
    cases hx : m.newSpec (some (.new c)) (r.map .new) (a.map .new) with
    | none => exact hs.weaken _
    | some y =>
      obtain ⟨m', s⟩ := y
      obtain ⟨g1, g2⟩ := newSpec_new (c := some (.new c)) trivial (by cases r <;> trivial) hx
      have he := newSpec_ext hg hx
      simp only [Option.bind_some]
      rw [he.events]
      cases ho : m.events[e]? with
      | none => exact hs.weaken _
      | some o =>
        simp only [Option.map_some, Option.getD_some]
        rw [he.specs]
        obtain ⟨q1, q2⟩ := setOn_refs m' s o
        refine Sep.change hv hs (e := e) (m'.setOn s o) (look_set ho) ?_ ?_
        · rcases q1 with q1 | q1
          · exact Or.inl ⟨o, ho, q1⟩
          · exact Or.inr (Or.inl (Nat.le_of_eq (q1.trans g1).symm))
        · intro r hr
          rcases q2 with q2 | q2
          · exact Or.inl ⟨o, ho, q2 ▸ hr⟩
          · exact Or.inr (Or.inl (Nat.le_of_eq (g2 r (q2 ▸ hr)).symm))
  | assignCats e x =>
    match x, hp with
    | .new v, _ =>
      unfold Memory.step? Memory.onEvent Memory.giveCats
      simp only [Option.bind_some]
      cases ho : m.events[e]? with
      | none => exact hs.weaken _
      | some o =>
        simp only [Option.map_some, Option.getD_some]
        refine Sep.change hv hs (e := e) { o with cats := m.sets.length } (look_set ho) ?_ ?_
        · exact Or.inr (Or.inl (Nat.le_refl _))
        · exact fun r hr => Or.inl ⟨o, ho, hr⟩
  | assignRule e x =>
    have key : ∀ y : Option Nat, (∀ r, y = some r → r = m.rules.length) → ∀ m' : Memory, m'.specs = m.specs →
        m'.events = m.events →
        Sep ((m'.onEvent e (fun o => { o with rule := y })).getD m).specs
          ((m'.onEvent e (fun o => { o with rule := y })).getD m).events (used ++ []) := by
      intro y hy m' h1 h2
      unfold Memory.onEvent
      rw [h2]
      cases ho : m.events[e]? with
      | none => exact hs.weaken _
      | some o =>
        simp only [Option.map_some, Option.getD_some]
        rw [h1]
        refine Sep.change hv hs (e := e) { o with rule := y } (look_set ho) ?_ ?_
        · exact Or.inl ⟨o, ho, rfl⟩
        · exact fun r hr => Or.inr (Or.inl (Nat.le_of_eq (hy r hr).symm))
    match x, hp with
    | none, _ => exact key none (fun r hr => by cases hr) m rfl rfl
    | some (.new v), _ =>
      exact key (some m.rules.length) (fun r hr => by injection hr with hr; exact hr.symm)
        { m with rules := m.rules ++ [v] } rfl rfl
  | changeCats e v => exact absurd trivial hn
  | changeRule e v => exact absurd trivial hn
  | append s x => exact absurd trivial hn

/-- One call. -/
theorem apart_step {m : Memory} {used : List Nat} (h : m.Apart used) (op : MemOp) (hp : PassesNew op)
    (hu : ∀ s ∈ transfers op, s ∉ used) {p : PlainMemory} (ha : PlainMemory.Agree used m.plain p) :
    (m.step op).Apart (used ++ transfers op) ∧
    PlainMemory.Agree (used ++ transfers op) (m.step op).plain (p.step op) := by
  by_cases hn : InPlace op
  · cases op with
    | changeCats e v =>
      obtain ⟨h1, h2⟩ := changeCats_agree h e v
      exact ⟨⟨h1.1, h1.2.weaken _⟩, agree_weaken (agree_trans h2 (agree_step ha _ hp hu))⟩
    | changeRule e v =>
      obtain ⟨h1, h2⟩ := changeRule_agree h e v
      exact ⟨⟨h1.1, h1.2.weaken _⟩, agree_weaken (agree_trans h2 (agree_step ha _ hp hu))⟩
    | append s x => exact absurd hp id
    | spec _ _ _ => exact absurd hn id
    | create _ => exact absurd hn id
    | apply _ _ => exact absurd hn id
    | importNew _ _ _ => exact absurd hn id
    | importOld _ _ _ _ => exact absurd hn id
    | assignCats _ _ => exact absurd hn id
    | assignRule _ _ => exact absurd hn id
  · obtain ⟨h1, h2⟩ := step_copies h.1 op hn
    refine ⟨⟨h2, sep_step h op hn hp hu⟩, agree_weaken ?_⟩
    rw [h1]
    exact agree_step ha op hp hu

/-! ### all histories -/

/-- Which list the argument gives. -/
def Memory.AttsOf (m : Memory) (a : Option (Given (List Invitation))) (r : Addr) : Prop :=
  match a with
  | none => r = 0
  | some (.new _) => r ≠ 0
  | some (.ofEvent _) => False
  | some (.ofSpec k) => ∃ o, m.specs[k]? = some o ∧ r = o.atts

theorem giveAtts_valid {m m' : Memory} (hv : m.Valid) {a : Option (Given (List Invitation))} {r : Addr}
    (h : m.giveAtts a = some (m', r)) : m.Ext m' ∧ r < m'.lists.length ∧ m.AttsOf a r := by
  have hd := hv.default
  match a with
  | none =>
    injection h with h
    injection h with h1 h2
    subst h1 h2
    exact ⟨Memory.Ext.refl _, hd, rfl⟩
  | some (.new v) =>
    injection h with h
    injection h with h1 h2
    subst h1 h2
    exact ⟨⟨⟨[], by simp⟩, ⟨[], by simp⟩, ⟨[v], rfl⟩, rfl, rfl⟩, by simp, Nat.ne_of_gt hd⟩
  | some (.ofEvent e) => cases h
  | some (.ofSpec k) =>
    unfold Memory.giveAtts at h
    simp only [] at h
    cases ho : m.specs[k]? with
    | none => rw [ho] at h; cases h
    | some o =>
      rw [ho] at h
      injection h with h
      injection h with h1 h2
      subst h1 h2
      exact ⟨Memory.Ext.refl _, (hv.specs o (List.mem_of_getElem? ho)).2.2, o, ho, rfl⟩

theorem giveCats_valid {m m' : Memory} (hv : m.Valid) {x : Option (Given (Finset String))} {r : Addr}
    (h : m.giveCats x = some (m', r)) : m.Ext m' ∧ r < m'.sets.length := by
  have h1 := giveCats_spec hv x
  cases hx : x.elim (some ∅) m.plain.cats with
  | none => rw [hx] at h1; simp only [] at h1; rw [h1] at h; cases h
  | some v =>
    rw [hx] at h1
    obtain ⟨m2, r2, g1, g2, g3, _⟩ := h1
    rw [g1] at h
    injection h with h
    injection h with e1 e2
    subst e1 e2
    exact ⟨g2, g3⟩

theorem giveRule_valid {m m' : Memory} (hv : m.Valid) {x : Option (Given Rule)} {r : Option Nat}
    (h : m.giveRule x = some (m', r)) : m.Ext m' ∧ ∀ y, r = some y → y < m'.rules.length := by
  have h1 := giveRule_spec hv x
  cases hx : x.elim (some none) m.plain.rule with
  | none => rw [hx] at h1; simp only [] at h1; rw [h1] at h; cases h
  | some v =>
    rw [hx] at h1
    obtain ⟨m2, r2, g1, g2, g3, _⟩ := h1
    rw [g1] at h
    injection h with h
    injection h with e1 e2
    subst e1 e2
    exact ⟨g2, g3⟩

theorem newSpec_valid {m m' : Memory} (hv : m.Valid) {c : Option (Given (Finset String))} {r : Option (Given Rule)}
    {a : Option (Given (List Invitation))} {s : MemSpec} (h : m.newSpec c r a = some (m', s)) :
    m.Ext m' ∧ s.Valid m' ∧ m.AttsOf a s.atts := by
  unfold Memory.newSpec at h
  cases h1 : m.giveCats c with
  | none => rw [h1] at h; cases h
  | some x =>
    obtain ⟨m1, cr⟩ := x
    rw [h1] at h
    simp only [Option.bind_some] at h
    obtain ⟨e1, v1⟩ := giveCats_valid hv h1
    have hv1 := e1.valid hv
    cases h2 : m1.giveRule r with
    | none => rw [h2] at h; cases h
    | some y =>
      obtain ⟨m2, rr⟩ := y
      rw [h2] at h
      simp only [Option.bind_some] at h
      obtain ⟨e2, v2⟩ := giveRule_valid hv1 h2
      have hv2 := e2.valid hv1
      cases h3 : m2.giveAtts a with
      | none => rw [h3] at h; cases h
      | some z =>
        obtain ⟨m3, ar⟩ := z
        rw [h3] at h
        injection h with h
        injection h with k1 k2
        subst k1 k2
        obtain ⟨e3, v3, v4⟩ := giveAtts_valid hv2 h3
        have e23 := e2.trans e3
        refine ⟨e1.trans e23, ⟨?_, ?_, v3⟩, ?_⟩
        · obtain ⟨l, hl⟩ := e23.sets; simp only []; rw [hl, List.length_append]; omega
        · intro y hy
          obtain ⟨l, hl⟩ := e3.rules
          have := v2 y hy
          rw [hl, List.length_append]; omega
        · match a, v4 with
          | none, v4 => exact v4
          | some (.new _), v4 => exact v4
          | some (.ofSpec k), v4 =>
            obtain ⟨o, ho, hr⟩ := v4
            rw [(e1.trans e2).specs] at ho
            exact ⟨o, ho, hr⟩

theorem onEvent_valid {m m' : Memory} (hv : m.Valid) {e : Nat} {f : MemEvent → MemEvent}
    (hf : ∀ o ∈ m.events, (f o).cats < m.sets.length ∧ ∀ r, (f o).rule = some r → r < m.rules.length)
    (h : m.onEvent e f = some m') : m'.Valid ∧ m'.lists = m.lists ∧ m'.specs = m.specs := by
  unfold Memory.onEvent at h
  cases ho : m.events[e]? with
  | none => rw [ho] at h; cases h
  | some o =>
    rw [ho] at h
    injection h with h
    subst h
    refine ⟨⟨hv.specs, fun x hx => ?_, hv.default⟩, rfl, rfl⟩
    rcases List.mem_or_eq_of_mem_set hx with hx | hx
    · exact hv.events x hx
    · exact hx ▸ hf o (List.mem_of_getElem? ho)

/-- Valid references, and what is known about the default list. -/
structure Memory.Tracks (m : Memory) (d : Defaults) : Prop where
  valid : m.Valid
  default : m.lists[0]? = some d.added
  flags : m.specs.map (fun s => decide (s.atts = 0)) = d.flags

theorem Memory.Tracks.same {m m' : Memory} {d : Defaults} (h : m.Tracks d) (hv : m'.Valid) (hl : m'.lists[0]? = m.lists[0]?)
    (hs : m'.specs = m.specs) : m'.Tracks d := ⟨hv, hl.trans h.default, by rw [hs]; exact h.flags⟩

theorem start_tracks : startMemory.Tracks ⟨[], []⟩ := ⟨start_good.1, rfl, rfl⟩

theorem step_tracks {m m' : Memory} {d : Defaults} (h : m.Tracks d) {op : MemOp} (hop : m.step? op = some m') :
    m'.Tracks (d.step op) := by
  have hv := h.valid
  have ext0 : ∀ {x : Memory}, m.Ext x → x.lists[0]? = m.lists[0]? := by
    intro x hx
    rw [h.default]; exact hx.default h.default
  cases op with
  | spec c r a =>
    unfold Memory.step? at hop
    simp only [] at hop
    cases hx : m.newSpec c r a with
    | none => rw [hx] at hop; cases hop
    | some y =>
      obtain ⟨m1, s⟩ := y
      rw [hx] at hop
      injection hop with hop
      subst hop
      obtain ⟨h1, h2, h3⟩ := newSpec_valid hv hx
      have hv1 := h1.valid hv
      have hvalid : ({ m1 with specs := m1.specs ++ [s] } : Memory).Valid := by
        refine ⟨fun x hx => ?_, hv1.events, hv1.default⟩
        rcases List.mem_append.1 hx with hx | hx
        · exact hv1.specs x hx
        · rw [List.mem_singleton.1 hx]; exact h2
      have hfl : (m1.specs ++ [s]).map (fun s => decide (s.atts = 0)) = d.flags ++ [decide (s.atts = 0)] := by
        rw [List.map_append, h1.specs, h.flags]; rfl
      have hd : m1.lists[0]? = some d.added := (ext0 h1).trans h.default
      match a, h3 with
      | none, h3 => exact ⟨hvalid, hd, by rw [hfl, h3]; rfl⟩
      | some (.new _), h3 => exact ⟨hvalid, hd, by rw [hfl, decide_eq_false h3]; rfl⟩
      | some (.ofSpec k), h3 =>
        obtain ⟨o, ho, hr⟩ := h3
        refine ⟨hvalid, hd, ?_⟩
        rw [hfl, hr]
        unfold Defaults.step
        simp only []
        rw [← h.flags, List.getElem?_map, ho]
        rfl
  | create s =>
    unfold Memory.step? at hop
    simp only [] at hop
    cases hx : m.specs[s]? with
    | none => rw [hx] at hop; cases hop
    | some x =>
      rw [hx] at hop
      injection hop with hop
      subst hop
      exact h.same (create_spec hv (hv.specs x (List.mem_of_getElem? hx))).2.1 rfl rfl
  | apply s e =>
    unfold Memory.step? at hop
    simp only [] at hop
    cases hx : m.specs[s]? with
    | none => rw [hx] at hop; cases hop
    | some x =>
      rw [hx] at hop
      obtain ⟨h1, h2, h3⟩ := onEvent_valid hv
        (fun o ho => setOn_valid hv (hv.specs x (List.mem_of_getElem? hx)) o ho) hop
      exact h.same h1 (by rw [h2]) h3
  | importNew c r a =>
    unfold Memory.step? at hop
    simp only [] at hop
    cases hx : m.newSpec (some (.new c)) (r.map .new) (a.map .new) with
    | none => rw [hx] at hop; cases hop
    | some y =>
      obtain ⟨m1, s⟩ := y
      rw [hx] at hop
      injection hop with hop
      subst hop
      obtain ⟨h1, h2, _⟩ := newSpec_valid hv hx
      exact h.same (m' := m1.create s) (create_spec (h1.valid hv) h2).2.1 (ext0 (x := m1) h1) h1.specs
  | importOld e c r a =>
    unfold Memory.step? at hop
    simp only [] at hop
    cases hx : m.newSpec (some (.new c)) (r.map .new) (a.map .new) with
    | none => rw [hx] at hop; cases hop
    | some y =>
      obtain ⟨m1, s⟩ := y
      rw [hx] at hop
      obtain ⟨h1, h2, _⟩ := newSpec_valid hv hx
      obtain ⟨g1, g2, g3⟩ := onEvent_valid (h1.valid hv) (fun o ho => setOn_valid (h1.valid hv) h2 o ho) hop
      exact h.same g1 (by rw [g2]; exact ext0 h1) (g3.trans h1.specs)
  | assignCats e x =>
    unfold Memory.step? at hop
    simp only [] at hop
    cases hx : m.giveCats (some x) with
    | none => rw [hx] at hop; cases hop
    | some y =>
      obtain ⟨m1, r⟩ := y
      rw [hx] at hop
      obtain ⟨h1, h2⟩ := giveCats_valid hv hx
      have hv1 := h1.valid hv
      obtain ⟨g1, g2, g3⟩ := onEvent_valid (f := fun o => { o with cats := r }) hv1 (fun o ho => ⟨h2, (hv1.events o ho).2⟩) hop
      exact h.same g1 (by rw [g2]; exact ext0 h1) (g3.trans h1.specs)
  | assignRule e x =>
    unfold Memory.step? at hop
    simp only [] at hop
    cases hx : m.giveRule x with
    | none => rw [hx] at hop; cases hop
    | some y =>
      obtain ⟨m1, r⟩ := y
      rw [hx] at hop
      obtain ⟨h1, h2⟩ := giveRule_valid hv hx
      have hv1 := h1.valid hv
      obtain ⟨g1, g2, g3⟩ := onEvent_valid (f := fun o => { o with rule := r }) hv1 (fun o ho => ⟨(hv1.events o ho).1, h2⟩) hop
      exact h.same g1 (by rw [g2]; exact ext0 h1) (g3.trans h1.specs)
  | changeCats e v =>
    unfold Memory.step? at hop
    simp only [] at hop
    cases hx : m.events[e]? with
    | none => rw [hx] at hop; cases hop
    | some o =>
      rw [hx] at hop
      injection hop with hop
      subst hop
      exact h.same ⟨fun s hs => by simpa using hv.specs s hs, fun s hs => by simpa using hv.events s hs, hv.default⟩ rfl rfl
  | changeRule e v =>
    unfold Memory.step? at hop
    simp only [] at hop
    cases hx : m.events[e]?.bind MemEvent.rule with
    | none => rw [hx] at hop; cases hop
    | some o =>
      rw [hx] at hop
      injection hop with hop
      subst hop
      exact h.same ⟨fun s hs => by simpa using hv.specs s hs, fun s hs => by simpa using hv.events s hs, hv.default⟩ rfl rfl
  | append s x =>
    unfold Memory.step? at hop
    simp only [] at hop
    cases hx : m.specs[s]? with
    | none => rw [hx] at hop; cases hop
    | some o =>
      rw [hx] at hop
      injection hop with hop
      subst hop
      have hval : ({ m with lists := m.lists.set o.atts (m.attsAt o.atts ++ [x]) } : Memory).Valid :=
        ⟨fun s hs => by simpa using hv.specs s hs, fun s hs => by simpa using hv.events s hs, by simpa using hv.default⟩
      unfold Defaults.step
      simp only []
      have hfl : d.flags[s]? = some (decide (o.atts = 0)) := by rw [← h.flags, List.getElem?_map, hx]; rfl
      rw [hfl]
      by_cases h0 : o.atts = 0
      · rw [if_pos (by rw [decide_eq_true h0])]
        refine ⟨hval, ?_, h.flags⟩
        simp only []
        rw [h0, List.getElem?_set_self hv.default]
        unfold Memory.attsAt
        rw [h.default]; rfl
      · rw [if_neg (by rw [decide_eq_false h0]; decide)]
        exact h.same hval (List.getElem?_set_ne h0) rfl

theorem run_tracks {m m' : Memory} {d : Defaults} (h : m.Tracks d) {ops : List MemOp} (hr : m.run? ops = some m') :
    m'.Tracks (ops.foldl Defaults.step d) := by
  induction ops generalizing m d with
  | nil => injection hr with hr; subst hr; exact h
  | cons op rest ih =>
    unfold Memory.run? at hr
    cases hx : m.step? op with
    | none => rw [hx] at hr; cases hr
    | some m1 =>
      rw [hx] at hr
      exact ih (step_tracks h hx) hr

end CalCore
