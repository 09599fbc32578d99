import Verif.Lemmas.Redact
import Verif.Props.Import2
/- C109: texts do not influence time and participation. -/
namespace CalCore
open Spec

/-- Two histories differ at most in texts: titles, descriptions, locations, access classes, documents, categories. -/
def SameButTexts (ops ops' : List Op) : Prop := ops.map redactOp = ops'.map redactOp

/-- C109: after two histories without imports that differ at most in texts, the stored events differ at most in texts,
and the same notifications have been sent.  Missing: imports (`C109_import_counterexample`). -/
theorem C109_stored_partial (id host : String) (ops ops' : List Op) (h : ∀ op ∈ ops, NoImport op) (h' : ∀ op ∈ ops', NoImport op)
    (hs : SameButTexts ops ops') :
    (∀ u, (Dict.get? ((freshWorld id host).run ops).store.events u).map redactEvent =
      (Dict.get? ((freshWorld id host).run ops').store.events u).map redactEvent) ∧
    ((freshWorld id host).run ops).log = ((freshWorld id host).run ops').log := by
  have a := redact_run ops h (freshWorld id host)
  have b := redact_run ops' h' (freshWorld id host)
  rw [hs, b] at a
  refine ⟨fun u => ?_, (congrArg World.log a).symm⟩
  have e : (redactWorld ((freshWorld id host).run ops')).store.events =
      (redactWorld ((freshWorld id host).run ops)).store.events := by rw [a]
  have := congrArg (fun d => Dict.get? d u) e
  simp only [redactWorld, redactStore, get?_mapValues] at this
  exact this.symm

/-- C109: a call that differs only in texts has the same outcome. -/
theorem C109_outcome_partial (w w' : World) (hw : redactWorld w = redactWorld w') (op op' : Op) (h : NoImport op) (h' : NoImport op')
    (hs : redactOp op = redactOp op') : (w.step op).2 = (w'.step op').2 := by
  have a := redact_step w h
  have b := redact_step w' h'
  rw [hs, hw, b] at a
  exact (congrArg Prod.snd a).symm

/-- C109: if the stored events differ at most in texts, then queries that do not ask for categories show the same
events, occurrences and parts of occurrences up to texts, and blocked and free periods are the same. -/
theorem C109_queries (s s' : Storage) (h : redactStore s = redactStore s') (b e : Option DateTime) (c : Option Criteria)
    (hc : (c.getD {}).categories = none) (atts : List AttId) (pb pe : DateTime) (tb te : Time) (md : Option TimeDelta) :
    (s.getEvents b e c).map (·.map redactEvent) = (s'.getEvents b e c).map (·.map redactEvent) ∧
    (s.getOccurrences b e c).map (·.map redactOcc) = (s'.getOccurrences b e c).map (·.map redactOcc) ∧
    (s.getOccurrencesSegmented b e c).map (·.map redactOcc) = (s'.getOccurrencesSegmented b e c).map (·.map redactOcc) ∧
    s.getBlockedPeriods atts pb pe tb te = s'.getBlockedPeriods atts pb pe tb te ∧
    s.getFreePeriods atts pb pe tb te md = s'.getFreePeriods atts pb pe tb te md := by
  have hb : ∀ tb te, s.getBlockedPeriods atts pb pe tb te = s'.getBlockedPeriods atts pb pe tb te := fun tb te => by
    rw [← redact_blocked s, h, redact_blocked]
  refine ⟨?_, ?_, ?_, hb tb te, ?_⟩
  · rw [← redact_getEvents s b e hc, h, redact_getEvents s' b e hc]
  · rw [← redact_getOccurrences s b e hc, h, redact_getOccurrences s' b e hc]
  · rw [← redact_getSegmented s b e hc, h, redact_getSegmented s' b e hc]
  · unfold Storage.getFreePeriods
    rw [hb]

/-- The sample history with other texts. -/
def otherTexts : List Op := Sample.ops.map fun
  | .create now uid spec => .create now uid { spec with title := "secret", location := "elsewhere", categories := {"private"} }
  | op => op

/-- C109, concrete: the sample history with other texts; titles differ, busy times do not. -/
example : SameButTexts Sample.ops otherTexts ∧ (∀ op ∈ otherTexts, NoImport op) ∧
    redactStore Sample.store = redactStore ((freshWorld "st" "host").run otherTexts).store ∧
    (Dict.get? Sample.store.events "m").map (·.title) = some "meeting" ∧
    (Dict.get? ((freshWorld "st" "host").run otherTexts).store.events "m").map (·.title) = some "secret" := by
  have h : ∀ op ∈ Sample.ops, NoImport op := by
    intro op h
    simp only [Sample.ops, List.mem_cons, List.not_mem_nil, or_false] at h
    rcases h with rfl | rfl | rfl | rfl | rfl | rfl <;> trivial
  have h' : ∀ op ∈ otherTexts, NoImport op := by
    intro op h
    simp only [otherTexts, Sample.ops, List.map_cons, List.map_nil, List.mem_cons, List.not_mem_nil, or_false] at h
    rcases h with rfl | rfl | rfl | rfl | rfl | rfl <;> trivial
  have hs : SameButTexts Sample.ops otherTexts := rfl
  refine ⟨hs, h', ?_, by decide +kernel, by decide +kernel⟩
  have a := redact_run Sample.ops h (freshWorld "st" "host")
  have b := redact_run otherTexts h' (freshWorld "st" "host")
  rw [hs, b] at a
  exact (congrArg World.store a).symm

/-- C109 is false for imports: whether an import changes the role of an attendee depends on the title.  Bob is a
required participant of "birthday" (one hour); data that make Bob the chair are ignored unless they bring another title too. -/
theorem C109_import_counterexample :
    let data := fun role title => Sample.imp [{
      uid := some "b", dtstart := some (.naive Sample.day), duration := some Sample.HOUR, summary := some title
      attendees := [{ addr := "bob", role := some role, partstat := some "ACCEPTED" }] }] false
    let role := fun ops => (((freshWorld "st" "host").run ops).store.getEvent "b").map (fun e => e.getRole "bob")
    role [data "REQ-PARTICIPANT" "birthday", data "CHAIR" "birthday"] = .ok (some "REQ-PARTICIPANT") ∧
    role [data "REQ-PARTICIPANT" "birthday", data "CHAIR" "party"] = .ok (some "CHAIR") := by decide +kernel

end CalCore
