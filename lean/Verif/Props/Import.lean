import Verif.Spec.Import
import Verif.Lemmas.Import
import Verif.Lemmas.SetOnObject
import Verif.Lemmas.ImportExact
import Verif.Props.Allday
/- Properties C46-C48, C52, C53 and C62: import. -/
namespace CalCore
open Spec

variable (parse : List Char → Res (Option (List VEvent))) (tz : LocalTz) (c : Calendar) (src : Source)
  (text : List Char) (b e : Option Int) (cr : Option Criteria) (sync : Bool)

/-! ### C46 -/

/-- C46: whatever is imported, and whether or not the import raises, an event that the calendar does not
show for the given period and criteria stays in the store as it was. -/
theorem C46_foreign (w : World) (hw : w.store.WF) (u : Uid) (ev : Event) (hs : w.store.getEvent u = .ok ev)
    (hf : ∀ l, c.getEvents src w.store b e cr = .ok l → ev ∉ l) :
    (w.import_ parse tz c src text b e cr sync).1.store.getEvent u = .ok ev := by
  rw [Storage.getEvent_ok] at hs ⊢
  rcases import_cases w parse tz c src text b e cr sync with ⟨f, _, h⟩ | ⟨l, hl, h⟩
  · rw [h]; exact hs
  · have hk : u ∉ (l.map (·.uid)).dedup := by
      intro hu
      obtain ⟨ev', hev', _, hg⟩ := (known_iff hw hl u).1 hu
      rw [hs] at hg
      injection hg with hg
      subst hg
      exact hf l hl hev'
    rcases h with ⟨f, _, h⟩ | ⟨_, h⟩ | ⟨vs, _, ⟨f, _, h⟩ | ⟨uids, _, h⟩⟩
    · rw [h]; exact hs
    · rw [h]; exact hs
    · rw [h]; exact importLoop_foreign tz c src _ vs w hk hs
    · rw [h]
      split
      · have := (import_removal w hw tz c src b e cr (vs := vs) (uids := uids) hl).2 u
        rw [this, if_neg (fun hu => hk (List.mem_filter.1 hu).1)]
        exact importLoop_foreign tz c src _ vs w hk hs
      · exact importLoop_foreign tz c src _ vs w hk hs

/-- C46 at the level of histories: an import of the same uid by another calendar. -/
theorem C46_reachable (id host : String) (ops : List Op) (vs : List VEvent) (u : Uid) (ev : Event)
    (hs : ((freshWorld id host).run ops).store.getEvent u = .ok ev)
    (hf : ∀ l, c.getEvents src ((freshWorld id host).run ops).store b e cr = .ok l → ev ∉ l) :
    ((freshWorld id host).run (ops ++ [.import_ tz c src vs b e cr sync])).store.getEvent u = .ok ev := by
  have hrun : ∀ (w : World) (l l' : List Op), w.run (l ++ l') = (w.run l).run l' := by
    intro w l l'
    induction l generalizing w with
    | nil => rfl
    | cons o l ih => exact ih _
  rw [hrun]
  exact C46_foreign _ tz c src _ b e cr sync _ (run_wf id host ops) u ev hs hf

/-- A stranger's calendar. -/
def Sample.carol : Calendar := [("carol", ())]
/-- Somebody else's data under the uid of the birthday. -/
def Sample.clash : VEvent :=
  { uid := some "b", dtstart := some (.date (ymd2ord 2027 1 1)), summary := some "stolen" }
/-- The attendees known to the source, with Carol. -/
def Sample.src3 : Source := Sample.src ++ [("carol", ⟨"Carol", "INDIVIDUAL"⟩)]

/-- C46, concrete: Carol synchronizes with data that contain the uid of Alice's birthday. -/
example :
    let w := (freshWorld "st" "host").run [Sample.imp [Sample.birthday] false]
    let w' := w.run [.import_ (fun _ => 0) Sample.carol Sample.src3 [Sample.clash] none none none true]
    Sample.carol.getEvents Sample.src3 w.store none none none = .ok [] ∧
    (w'.store.getEvent "b").map (·.title) = .ok "birthday" := by decide +kernel

/-! ### C47 -/

/-- C47: after a successful import, the store has exactly the uids of the data and those it had before,
except, when synchronizing, those of the calendar's events that are not in the data. -/
theorem C47_exact (w : World) (hw : w.store.WF) (vs : List VEvent) (l : List Event)
    (hp : parse (repairText text) = .ok (some vs)) (hl : c.getEvents src w.store b e cr = .ok l)
    (h : (w.import_ parse tz c src text b e cr sync).2 = .ok ()) (u : Uid) :
    (w.import_ parse tz c src text b e cr sync).1.store.hasEvent u = true ↔
      (∃ v ∈ vs, v.uid = some u) ∨
      w.store.hasEvent u = true ∧ ¬ (sync = true ∧ ∃ ev ∈ l, ev.uid = u) := by
  rcases import_cases w parse tz c src text b e cr sync with ⟨f, hf, _⟩ | ⟨l', hl', h'⟩
  · rw [hl] at hf; cases hf
  · rw [hl] at hl'
    injection hl' with hl'
    subst hl'
    rcases h' with ⟨f, hf, _⟩ | ⟨hf, _⟩ | ⟨vs', hp', ⟨f, _, h'⟩ | ⟨uids, hloop, h'⟩⟩
    · rw [hp] at hf; cases hf
    · rw [hp] at hf; cases hf
    · rw [h'] at h; cases h
    · rw [hp] at hp'
      injection hp' with hp'
      injection hp' with hp'
      subst hp'
      obtain ⟨hu, _, hpresent⟩ := importLoop_ok tz c src _ vs w hloop
      have hin : (∃ v ∈ vs, v.uid = some u) ↔ u ∈ uids := by rw [hu, mem_dataUids]
      have hloopU : (∃ x, Dict.get? (World.importLoop tz c src (l.map (·.uid)).dedup w vs).1.store.events u = some x)
          ↔ u ∈ uids ∨ ∃ x, Dict.get? w.store.events u = some x := by
        constructor
        · intro hx
          by_cases huu : u ∈ uids
          · exact Or.inl huu
          · right
            rw [importLoop_other tz c src _ vs w (u := u) (fun v hv hvu => huu (hin.1 ⟨v, hv, hvu⟩))] at hx
            exact hx
        · rintro (hx | hx)
          · exact hpresent u hx
          · exact importLoop_keeps tz c src _ vs w hx
      rw [hin, h']
      cases sync with
      | false =>
        simp only [Bool.false_eq_true, if_false, false_and, not_false_eq_true, and_true]
        rw [Storage.hasEvent_iff, Storage.hasEvent_iff]
        exact hloopU
      | true =>
        simp only [if_true, true_and]
        rw [Storage.hasEvent_iff, Storage.hasEvent_iff]
        rw [(import_removal w hw tz c src b e cr (vs := vs) (uids := uids) hl).2 u]
        have hgone : u ∈ (l.map (·.uid)).dedup.filter (fun u => u ∉ uids) ↔ (∃ ev ∈ l, ev.uid = u) ∧ u ∉ uids := by
          rw [List.mem_filter, List.mem_dedup, List.mem_map]
          simp
        by_cases hg : u ∈ (l.map (·.uid)).dedup.filter (fun u => u ∉ uids)
        · rw [if_pos hg]
          obtain ⟨h1, h2⟩ := hgone.1 hg
          simp [h1, h2]
        · rw [if_neg hg, hloopU]
          rw [hgone, not_and, not_not] at hg
          constructor
          · rintro (h1 | h1)
            · exact Or.inl h1
            · by_cases h2 : ∃ ev ∈ l, ev.uid = u
              · exact Or.inl (hg h2)
              · exact Or.inr ⟨h1, h2⟩
          · rintro (h1 | ⟨h1, _⟩)
            · exact Or.inl h1
            · exact Or.inr h1

/-- C47: an import that does not synchronize, and every import that raises, deletes nothing. -/
theorem C47_no_deletion (w : World) (hw : w.store.WF)
    (h : sync = false ∨ (w.import_ parse tz c src text b e cr sync).2 ≠ .ok ()) (u : Uid)
    (hu : w.store.hasEvent u = true) : (w.import_ parse tz c src text b e cr sync).1.store.hasEvent u = true := by
  rw [Storage.hasEvent_iff] at hu ⊢
  rcases import_cases w parse tz c src text b e cr sync with ⟨f, _, h'⟩ | ⟨l, hl, h'⟩
  · rw [h']; exact hu
  · rcases h' with ⟨f, _, h'⟩ | ⟨_, h'⟩ | ⟨vs, _, ⟨f, _, h'⟩ | ⟨uids, _, h'⟩⟩
    · rw [h']; exact hu
    · rw [h']; exact hu
    · rw [h']; exact importLoop_keeps tz c src _ vs w hu
    · cases sync with
      | false => rw [h']; exact importLoop_keeps tz c src _ vs w hu
      | true =>
        exfalso
        rcases h with h | h
        · cases h
        · rw [h', if_pos rfl] at h
          exact h (import_removal w hw tz c src b e cr (vs := vs) (uids := uids) hl).1

/-- C47, concrete: two events of Alice, one of them in the data; a foreign event survives. -/
example :
    let w := (freshWorld "st" "host").run
      [Sample.imp [Sample.birthday, { Sample.birthday with uid := some "x" }] false,
       .import_ (fun _ => 0) Sample.carol Sample.src3 [{ Sample.clash with uid := some "c" }] none none none false]
    let w' := w.run [Sample.imp [Sample.birthday, { Sample.birthday with uid := some "n" }] true]
    Dict.keys w.store.events = ["b", "x", "c"] ∧ Dict.keys w'.store.events = ["b", "c", "n"] := by decide +kernel

/-! ### C48 -/

/-- An event that a second import of `v` does not change. -/
def SettledStore (v : VEvent) (ev : Event) : Prop :=
  ∃ spec, importSpec tz c src v = .ok spec ∧ (spec.willModify ev = .ok false ∨ spec.setOnObject ev = (ev, .ok ()))

/-- A specification with whole days is not adjusted. -/
theorem newEvent_whole {uid : Uid} {spec : Spec} {ev : Event} (hw : WholeDaysSpec spec)
    (h : newEvent uid spec = .ok ev) : spec.setOnObject (blankEvent uid) = (ev, .ok ()) := by
  have hat := setOnObject_attrs spec (blankEvent uid)
  unfold newEvent at h
  cases ho : spec.setOnObject (blankEvent uid) with
  | mk e' r =>
    rw [ho] at h hat
    cases r with
    | error f => cases h
    | ok x =>
      simp only [] at h hat
      injection h with h
      have : ev = e' := by
        rw [← h]
        split
        · rename_i ha
          rw [hat.1] at ha
          obtain ⟨h1, k, hk, h2⟩ := hw ha
          rw [← hat.2.1] at h1
          rw [← hat.2.2] at h2
          unfold Event.alldayAdjust
          rw [h2]
          have hd : combine (dtDate e'.dtstart) 0 = e'.dtstart := by
            unfold combine dtDate
            have := Int.mul_ediv_add_emod e'.dtstart DAY
            rw [h1] at this
            unfold DAY at this ⊢
            omega
          have hd2 : ∀ x : Int, x = k * DAY →
              (if x - x / DAY * DAY ≠ 0 ∨ x / DAY = 0 then x / DAY + 1 else x / DAY) * DAY = x := by
            intro x hx
            unfold DAY at hx ⊢
            split <;> omega
          simp only []
          rw [hd, hd2 _ rfl, ← h2]
        · rfl
      rw [this]

theorem newEvent_settled {uid : Uid} {v : VEvent} {spec : Spec} {ev : Event}
    (hs : importSpec tz c src v = .ok spec) (hv : ProperAllday v) (h : newEvent uid spec = .ok ev) :
    SettledStore tz c src v ev := by
  refine ⟨spec, hs, Or.inr ?_⟩
  have hb : (blankEvent uid).Parts := ⟨by simp [blankEvent, Dict.keys], by simp [blankEvent, Dict.keys]⟩
  exact setOnObject_idem hb (newEvent_whole (importSpec_wholeDays hs hv) h)

/-- What a successful import leaves under a uid of the data. -/
theorem importOne_settled (w : World) (known : List Uid) (uid : Uid) (v : VEvent) (hv : ProperAllday v)
    (hp : ∀ k ev, Dict.get? w.store.events k = some ev → ev.Parts)
    (h : (w.importOne tz c src known uid v).2 = .ok ()) :
    ∃ ev, Dict.get? (w.importOne tz c src known uid v).1.store.events uid = some ev ∧
      (uid ∉ known ∧ Dict.get? w.store.events uid = some ev ∨ SettledStore tz c src v ev) := by
  unfold World.importOne at h ⊢
  by_cases hk : uid ∈ known
  · rw [if_pos hk] at h ⊢
    unfold World.importExisting at h ⊢
    cases hg : w.store.getEvent uid with
    | error f => rw [hg] at h; cases h
    | ok ev =>
      rw [hg] at h
      simp only [] at h ⊢
      cases hs : importSpec tz c src v with
      | error f => rw [hs] at h; cases h
      | ok spec =>
        rw [hs] at h
        simp only [] at h ⊢
        cases hm : spec.willModify ev with
        | error f => rw [hm] at h; cases h
        | ok m =>
          rw [hm] at h
          cases m with
          | false => exact ⟨ev, Storage.getEvent_ok.1 hg, Or.inr ⟨spec, hs, Or.inl hm⟩⟩
          | true =>
            simp only [] at h ⊢
            cases ho : spec.setOnObject ev with
            | mk e' r =>
              rw [ho] at h
              cases r with
              | error f => cases h
              | ok x =>
                exact ⟨e', Dict.get?_set_self .., Or.inr ⟨spec, hs, Or.inr
                  (setOnObject_idem (hp _ _ (Storage.getEvent_ok.1 hg)) ho)⟩⟩
  · rw [if_neg hk] at h ⊢
    by_cases hh : w.store.hasEvent uid = true
    · rw [if_neg (by simpa using hh)] at h ⊢
      obtain ⟨ev, hev⟩ := Storage.hasEvent_iff.1 hh
      exact ⟨ev, hev, Or.inl ⟨hk, hev⟩⟩
    · rw [if_pos hh] at h ⊢
      unfold World.importNew at h ⊢
      cases hs : importSpec tz c src v with
      | error f => rw [hs] at h; cases h
      | ok spec =>
        rw [hs] at h
        simp only [] at h ⊢
        rcases w.createEvent_eq 0 (some uid) spec with ⟨f, _, h'⟩ | ⟨ev, hn, hu, h'⟩
        · rw [h'] at h; cases h
        · rw [h']
          simp only [Option.getD_some] at hu hn
          simp only [hu]
          exact ⟨ev, Dict.get?_set_self .., Or.inr (newEvent_settled tz c src hs hv hn)⟩

theorem importOne_parts (w : World) (known : List Uid) (uid : Uid) (v : VEvent)
    (hp : ∀ k ev, Dict.get? w.store.events k = some ev → ev.Parts) :
    ∀ k ev, Dict.get? (w.importOne tz c src known uid v).1.store.events k = some ev → ev.Parts := by
  refine (World.importOne_importMany (Q := fun _ => True) w tz c src known uid v (fun _ _ => trivial)).preserves
    (P := fun w => ∀ k ev, Dict.get? w.store.events k = some ev → ev.Parts) ?_ hp
  intro w w' hs hw k ev hk
  cases hs with
  | create uid spec e hq he =>
    rw [Dict.get?_set] at hk
    split at hk
    · injection hk with hk; subst hk; exact newEvent_parts he
    · exact hw k ev hk
  | update uid e spec log hq he =>
    rw [Dict.get?_set] at hk
    split at hk
    · injection hk with hk; subst hk; exact setOnObject_parts (hw _ _ he) spec
    · exact hw k ev hk
  | delete uid _ =>
    rw [Dict.get?_del] at hk
    split at hk
    · cases hk
    · exact hw k ev hk

theorem importLoop_settled (known : List Uid) (vs : List VEvent) (w : World)
    (hn : (vs.map (·.uid)).Nodup) (hv : ∀ v ∈ vs, ProperAllday v)
    (hp : ∀ k ev, Dict.get? w.store.events k = some ev → ev.Parts) {uids : List Uid}
    (h : (World.importLoop tz c src known w vs).2 = .ok uids) :
    ∀ v ∈ vs, ∀ u, v.uid = some u →
      ∃ ev, Dict.get? (World.importLoop tz c src known w vs).1.store.events u = some ev ∧
        (u ∉ known ∧ Dict.get? w.store.events u = some ev ∨ SettledStore tz c src v ev) := by
  induction vs generalizing w uids with
  | nil => intro v hv; cases hv
  | cons v0 rest ih =>
    rw [List.map_cons, List.nodup_cons] at hn
    rcases importLoop_step tz c src known w v0 rest with ⟨_, h'⟩ | ⟨uid, huid, ⟨f, _, h'⟩ | ⟨hok, h'⟩⟩
    · rw [h'] at h; cases h
    · rw [h'] at h; cases h
    · rw [h'] at h ⊢
      simp only [] at h ⊢
      cases hr : (World.importLoop tz c src known (w.importOne tz c src known uid v0).1 rest).2 with
      | error f => rw [hr] at h; cases h
      | ok us =>
        intro v hvm u hu
        rcases List.mem_cons.1 hvm with rfl | hvm
        · rw [huid] at hu
          injection hu with hu
          subst hu
          rw [importLoop_other tz c src known rest _ (u := uid) (fun x hx hxu => hn.1 (by
            rw [huid, ← hxu]; exact List.mem_map_of_mem hx))]
          exact importOne_settled tz c src w known uid v (hv v (List.mem_cons_self ..)) hp hok
        · have hne : u ≠ uid := by
            rintro rfl
            exact hn.1 (by rw [huid, ← hu]; exact List.mem_map_of_mem hvm)
          obtain ⟨ev, h1, h2⟩ := ih _ hn.2 (fun x hx => hv x (List.mem_cons_of_mem _ hx))
            (importOne_parts tz c src w known uid v0 hp) hr v hvm u hu
          refine ⟨ev, h1, ?_⟩
          rwa [importOne_other w tz c src known uid v0 hne] at h2

theorem importOne_still (w : World) (hw : w.store.WF) (known : List Uid) (uid : Uid) (v : VEvent) {ev : Event}
    (hg : Dict.get? w.store.events uid = some ev) (h : uid ∉ known ∨ SettledStore tz c src v ev) :
    (w.importOne tz c src known uid v).1.store = w.store := by
  unfold World.importOne
  by_cases hk : uid ∈ known
  · rw [if_pos hk]
    rcases h with h | ⟨spec, hs, h⟩
    · exact absurd hk h
    · unfold World.importExisting
      rw [Storage.getEvent_ok.2 hg]
      simp only [hs]
      rcases h with h | h
      · rw [h]
      · cases spec.willModify ev with
        | error f => rfl
        | ok m =>
          cases m with
          | false => rfl
          | true =>
            simp only [h]
            rw [Dict.set_self hg hw.nodup]
  · rw [if_neg hk, if_neg]
    have : w.store.hasEvent uid = true := Storage.hasEvent_iff.2 ⟨ev, hg⟩
    simp [this]

theorem importLoop_still (known : List Uid) (vs : List VEvent) (w : World) (hw : w.store.WF)
    (h : ∀ v ∈ vs, ∀ u, v.uid = some u → ∃ ev, Dict.get? w.store.events u = some ev ∧
      (u ∉ known ∨ SettledStore tz c src v ev)) :
    (World.importLoop tz c src known w vs).1.store = w.store := by
  induction vs generalizing w with
  | nil => rfl
  | cons v rest ih =>
    rcases importLoop_step tz c src known w v rest with ⟨_, h'⟩ | ⟨uid, huid, ⟨f, _, h'⟩ | ⟨hok, h'⟩⟩
    · rw [h']
    · rw [h']
      obtain ⟨ev, hg, hs⟩ := h v (List.mem_cons_self ..) uid huid
      exact importOne_still tz c src w hw known uid v hg hs
    · rw [h']
      obtain ⟨ev, hg, hs⟩ := h v (List.mem_cons_self ..) uid huid
      have h1 := importOne_still tz c src w hw known uid v hg hs
      simp only []
      rw [ih _ (by rw [h1]; exact hw) (by rw [h1]; exact fun x hx => h x (List.mem_cons_of_mem _ hx)), h1]

/-- C48: when the first import succeeds, a second import of the same data leaves the store exactly as the
first left it, whether it succeeds or not.  Missing: data with several components of the same uid, and
all-day components without an end or with an end that is not a later DATE; for both it is false
(`C48_duplicate_counterexample`, `C48_birthday_counterexample`).  Nothing is claimed after an import that
raises. -/
theorem C48_twice_partial (id host : String) (ops : List Op)
    (hv : ∀ vs, parse (repairText text) = .ok (some vs) → (vs.map (·.uid)).Nodup ∧ ∀ v ∈ vs, ProperAllday v)
    (w1 : World)
    (h1 : ((freshWorld id host).run ops).import_ parse tz c src text b e cr sync = (w1, .ok ())) :
    (w1.import_ parse tz c src text b e cr sync).1.store = w1.store := by
  have hw := run_wf id host ops
  have hparts := run_parts id host ops
  generalize (freshWorld id host).run ops = w at *
  have hw1 : w1.store.WF := by
    have := (World.import_many w parse tz c src text b e cr sync).wf hw
    rw [h1] at this
    exact this
  rcases import_cases w1 parse tz c src text b e cr sync with ⟨f, _, h⟩ | ⟨l1, hl1, h⟩
  · rw [h]
  rcases h with ⟨f, _, h⟩ | ⟨_, h⟩ | ⟨vs, hvs, h⟩
  · rw [h]
  · rw [h]
  obtain ⟨hn, hpa⟩ := hv vs hvs
  -- the first import
  rcases import_cases w parse tz c src text b e cr sync with ⟨f, _, h0⟩ | ⟨l, hl, h0⟩
  · rw [h0] at h1; cases h1
  rcases h0 with ⟨f, hf, h0⟩ | ⟨hf, h0⟩ | ⟨vs', hvs', ⟨f, _, h0⟩ | ⟨uids, hloop, h0⟩⟩
  · rw [h0] at h1; cases h1
  · rw [hvs] at hf; cases hf
  · rw [h0] at h1; cases h1
  rw [hvs] at hvs'
  injection hvs' with hvs'
  injection hvs' with hvs'
  subst hvs'
  rw [h1] at h0
  obtain ⟨huids, hall, _⟩ := importLoop_ok tz c src _ vs w hloop
  have hsettled := importLoop_settled tz c src _ vs w hn hpa hparts hloop
  have hrem := (import_removal w hw tz c src b e cr (vs := vs) (uids := uids) hl).2
  -- the store after the first import, for uids of the data and others
  have hin : ∀ u, u ∈ uids → Dict.get? w1.store.events u =
      Dict.get? (World.importLoop tz c src (l.map (·.uid)).dedup w vs).1.store.events u := by
    intro u hu
    cases sync with
    | false => rw [if_neg (by simp)] at h0; injection h0 with h0 _; rw [h0]
    | true =>
      rw [if_pos rfl] at h0
      have : w1 = (World.removeLoop (World.importLoop tz c src (l.map (·.uid)).dedup w vs).1
        ((l.map (·.uid)).dedup.filter (fun u => u ∉ uids))).1 := by rw [← h0]
      rw [this, hrem u, if_neg]
      intro hx
      have := (List.mem_filter.1 hx).2
      simp [hu] at this
  have hout : ∀ u, u ∉ uids → ∀ ev, Dict.get? w1.store.events u = some ev →
      Dict.get? w.store.events u = some ev ∧ ¬ (sync = true ∧ u ∈ (l.map (·.uid)).dedup) := by
    intro u hu ev hev
    have hoth := importLoop_other tz c src (l.map (·.uid)).dedup vs w (u := u) (fun v hv' hvu => hu (by
      rw [huids, mem_dataUids]; exact ⟨v, hv', hvu⟩))
    cases sync with
    | false =>
      rw [if_neg (by simp)] at h0
      injection h0 with h0 _
      rw [h0, hoth] at hev
      exact ⟨hev, by simp⟩
    | true =>
      rw [if_pos rfl] at h0
      have : w1 = (World.removeLoop (World.importLoop tz c src (l.map (·.uid)).dedup w vs).1
        ((l.map (·.uid)).dedup.filter (fun u => u ∉ uids))).1 := by rw [← h0]
      rw [this, hrem u] at hev
      split at hev
      · cases hev
      · rename_i hng
        rw [hoth] at hev
        refine ⟨hev, ?_⟩
        rintro ⟨_, hk⟩
        exact hng (List.mem_filter.2 ⟨hk, by simpa using hu⟩)
  -- the second loop
  have hstill := importLoop_still tz c src (l1.map (·.uid)).dedup vs w1 hw1 (by
    intro v hvm u hu
    have huu : u ∈ uids := by rw [huids, mem_dataUids]; exact ⟨v, hvm, hu⟩
    obtain ⟨ev, hg, hs⟩ := hsettled v hvm u hu
    rw [← hin u huu] at hg
    refine ⟨ev, hg, ?_⟩
    rcases hs with ⟨hk, hold⟩ | hs
    · left
      intro hk1
      obtain ⟨ev', hev', hu', hg'⟩ := (known_iff hw1 hl1 u).1 hk1
      rw [hg] at hg'
      injection hg' with hg'
      subst hg'
      have hst : Stored w.store ev := by unfold Stored; rw [hu']; exact hold
      have hst1 : Stored w1.store ev := by unfold Stored; rw [hu']; exact hg
      have := (calendar_same hw hw1 hl hl1 hst hst1).2 hev'
      exact hk ((known_iff hw hl u).2 ⟨ev, this, hu', hold⟩)
    · exact Or.inr hs)
  rcases h with ⟨f, _, h⟩ | ⟨uids', hloop', h⟩
  · rw [h]; exact hstill
  · rw [h]
    cases sync with
    | false => rw [if_neg (by simp)]; exact hstill
    | true =>
      rw [if_pos rfl]
      have huids' := (importLoop_ok tz c src _ vs w1 hloop').1
      have hempty : (l1.map (·.uid)).dedup.filter (fun u => u ∉ uids') = [] := by
        rw [List.filter_eq_nil_iff]
        intro u hu
        simp only [decide_eq_true_eq, not_not]
        rw [huids', ← huids]
        by_contra hnu
        obtain ⟨ev, hev, hu', hg⟩ := (known_iff hw1 hl1 u).1 hu
        obtain ⟨hold, hnk⟩ := hout u hnu ev hg
        apply hnk
        refine ⟨rfl, (known_iff hw hl u).2 ⟨ev, ?_, hu', hold⟩⟩
        refine (calendar_same hw hw1 hl hl1 ?_ ?_).2 hev
        · unfold Stored; rw [hu']; exact hold
        · unfold Stored; rw [hu']; exact hg
      rw [hempty]
      exact hstill

/-- C48 is false for all-day components without an end. -/
theorem C48_birthday_counterexample :
    let w := (freshWorld "st" "host").run [Sample.imp [Sample.birthday] false]
    (w.run [Sample.imp [Sample.birthday] false]).store.events ≠ w.store.events := by decide +kernel

/-- Two components with the same uid. -/
def Sample.twice : List VEvent :=
  [{ uid := some "d", dtstart := some (.naive Sample.day), summary := some "first" },
   { uid := some "d", dtstart := some (.naive Sample.day), summary := some "second" }]

/-- C48 is false for data with two components of the same uid: a new event is as in the first component, an
existing one as in the last. -/
theorem C48_duplicate_counterexample :
    let w := (freshWorld "st" "host").run [Sample.imp Sample.twice false]
    let w' := w.run [Sample.imp Sample.twice false]
    (w.store.getEvent "d").map (·.title) = .ok "first" ∧ (w'.store.getEvent "d").map (·.title) = .ok "second" := by
  decide +kernel

/-- Data as C48 wants them: a meeting with a guest in another role, and a whole day. -/
def Sample.good : List VEvent :=
  [{ uid := some "m", dtstart := some (.naive Sample.day), duration := some Sample.HOUR
     attendees := [{ addr := "bob", role := some "OPT-PARTICIPANT" }] },
   { Sample.birthday with dtend := some (.date (ymd2ord 2026 3 3)) }]

/-- C48, concrete: the second import runs through `setOnObject` (it even sends a notification) and changes
nothing. -/
example :
    let w := (freshWorld "st" "host").run [Sample.imp Sample.good true]
    let w' := w.run [Sample.imp Sample.good true]
    w'.store.events = w.store.events ∧ w.log.length = 2 ∧ w'.log = w.log ++ [.modified "m"] := by decide +kernel

example : (Sample.good.map (·.uid)).Nodup ∧ ∀ v ∈ Sample.good, ProperAllday v := by
  refine ⟨by decide, ?_⟩
  intro v hv d hd
  simp only [Sample.good, List.mem_cons, List.not_mem_nil, or_false] at hv
  rcases hv with rfl | rfl
  · injection hd with hd; cases hd
  · injection hd with hd
    injection hd with hd
    subst hd
    exact Or.inl ⟨_, rfl, by decide⟩

/-! ### C52 -/

theorem floatDatetime_means {t : ICalTime} {x : Int} (h : ¬ IsDateValue t) :
    floatDatetime tz t = .ok x ↔ Means tz t x := by
  cases t with
  | date d => exact absurd trivial h
  | naive t =>
    simp only [floatDatetime, Except.ok.injEq]
    constructor
    · rintro rfl; exact .floating _
    · intro h; cases h; rfl
  | aware t off =>
    simp only [floatDatetime, bind_ok, dtAdd_ok]
    constructor
    · rintro ⟨y, ⟨h1, rfl⟩, h2, rfl⟩
      exact .zoned t off h1 h2
    · intro h
      cases h with
      | zoned _ _ h1 h2 => exact ⟨_, ⟨h1, rfl⟩, h2, rfl⟩

theorem importEnd_means {t : ICalTime} {x : Int} : importEnd tz t = .ok x ↔ Means tz t x := by
  cases t with
  | date d =>
    simp only [importEnd, Except.ok.injEq]
    constructor
    · rintro rfl; exact (by unfold combine; rw [Int.add_zero]; exact .date d)
    · intro h; cases h; unfold combine; rw [Int.add_zero]
  | naive t => exact floatDatetime_means tz (t := .naive t) (fun h => h)
  | aware t off => exact floatDatetime_means tz (t := .aware t off) (fun h => h)

theorem importStart_means {t : ICalTime} {x : Int} {ad : Bool} :
    importStart tz t = .ok (x, ad) ↔ Means tz t x ∧ (ad = true ↔ IsDateValue t) := by
  cases t with
  | date d =>
    simp only [importStart, Except.ok.injEq, Prod.mk.injEq]
    constructor
    · rintro ⟨rfl, rfl⟩
      exact ⟨by unfold combine; rw [Int.add_zero]; exact .date d, by simp [IsDateValue]⟩
    · rintro ⟨h, h'⟩; cases h; unfold combine; rw [Int.add_zero]; exact ⟨rfl, (h'.2 trivial).symm⟩
  | naive t =>
    simp only [importStart, bind_ok, Except.ok.injEq, Prod.mk.injEq]
    rw [← floatDatetime_means tz (t := .naive t) (fun h => h)]
    constructor
    · rintro ⟨y, h, rfl, rfl⟩; exact ⟨h, by simp [IsDateValue]⟩
    · rintro ⟨h, h'⟩; exact ⟨x, h, rfl, by simpa [IsDateValue] using h'⟩
  | aware t off =>
    simp only [importStart, bind_ok, Except.ok.injEq, Prod.mk.injEq]
    rw [← floatDatetime_means tz (t := .aware t off) (fun h => h)]
    constructor
    · rintro ⟨y, h, rfl, rfl⟩; exact ⟨h, by simp [IsDateValue]⟩
    · rintro ⟨h, h'⟩; exact ⟨x, h, rfl, by simpa [IsDateValue] using h'⟩

/-- C52: `_getDtstartDuration` returns (start, duration, all-day) exactly when these are what the data mean:
the start is the local time meant by DTSTART, the event is all-day iff DTSTART is a DATE, and the duration
leads to the local time meant by DTEND if there is one, else is DURATION if there is one, else is zero. -/
theorem C52_meaning (v : VEvent) (x dur : Int) (ad : Bool) :
    getDtstartDuration tz v = .ok (x, dur, ad) ↔
      ∃ st, v.dtstart = some st ∧ Means tz st x ∧ (ad = true ↔ IsDateValue st) ∧
        (∀ en, v.dtend = some en → Means tz en (x + dur)) ∧
        (v.dtend = none → ∀ d, v.duration = some d → dur = d) ∧
        (v.dtend = none → v.duration = none → dur = 0) := by
  unfold getDtstartDuration
  cases v.dtstart with
  | none => simp
  | some st =>
    simp only [bind_ok, Option.some.injEq, exists_eq_left']
    have hlast : ∀ y : Int × Bool → Prop, (∃ a, importStart tz st = .ok a ∧ y a) ↔
        ∃ x ad, (Means tz st x ∧ (ad = true ↔ IsDateValue st)) ∧ y (x, ad) := by
      intro y
      constructor
      · rintro ⟨⟨x, ad⟩, h, hy⟩; exact ⟨x, ad, (importStart_means tz).1 h, hy⟩
      · rintro ⟨x, ad, h, hy⟩; exact ⟨(x, ad), (importStart_means tz).2 h, hy⟩
    rw [hlast]
    cases v.dtend with
    | some en =>
      simp only [bind_ok, Except.ok.injEq, Prod.mk.injEq, Option.some.injEq, forall_eq', reduceCtorEq, false_implies,
        and_true]
      constructor
      · rintro ⟨x', ad', ⟨h1, h2⟩, y, h3, rfl, rfl, rfl⟩
        refine ⟨h1, h2, ?_⟩
        rw [show x' + (y - x') = y by omega]
        exact (importEnd_means tz).1 h3
      · rintro ⟨h1, h2, h3⟩
        exact ⟨x, ad, ⟨h1, h2⟩, x + dur, (importEnd_means tz).2 h3, rfl, by omega, rfl⟩
    | none =>
      cases v.duration with
      | some d =>
        simp only [Except.ok.injEq, Prod.mk.injEq, Option.some.injEq, forall_eq', reduceCtorEq, false_implies,
          implies_true, and_true, true_and, true_implies]
        constructor
        · rintro ⟨x', ad', ⟨h1, h2⟩, rfl, rfl, rfl⟩; exact ⟨h1, h2, rfl⟩
        · rintro ⟨h1, h2, rfl⟩; exact ⟨x, ad, ⟨h1, h2⟩, rfl, rfl, rfl⟩
      | none =>
        simp only [Except.ok.injEq, Prod.mk.injEq, reduceCtorEq, false_implies,
          implies_true, true_and, true_implies]
        constructor
        · rintro ⟨x', ad', ⟨h1, h2⟩, rfl, rfl, rfl⟩; exact ⟨h1, h2, by omega⟩
        · rintro ⟨h1, h2, rfl⟩; exact ⟨x, ad, ⟨h1, h2⟩, rfl, by omega, rfl⟩

/-- The values meant by a date or time are unique. -/
theorem C52_unique (t : ICalTime) (x y : Int) (hx : Means tz t x) (hy : Means tz t y) : x = y := by
  cases hx <;> cases hy <;> rfl

/-- C52 for the event created by an import: a component that is not all-day gives the start and the duration
of the data; an all-day component with neither end nor duration gives one day from midnight. -/
theorem C52_new_event (v : VEvent) (s : Spec) (uid : Uid) (ev : Event) (x dur : Int) (ad : Bool)
    (hm : getDtstartDuration tz v = .ok (x, dur, ad)) (hs : importSpec tz c src v = .ok s)
    (hn : newEvent uid s = .ok ev) :
    ev.allday = ad ∧ (ad = false → ev.dtstart = x ∧ ev.duration = some dur) ∧
      (ad = true → ev.dtstart = x ∧ (v.dtend = none → v.duration = none → ev.duration = some DAY)) := by
  have hspec : s.dtstart = x ∧ s.duration = some dur ∧ s.allday = ad := by
    unfold importSpec at hs
    rw [hm] at hs
    simp only [ok_bind, bind_ok, Except.ok.injEq] at hs
    obtain ⟨_, _, _, _, hs⟩ := hs
    rw [← hs]
    exact ⟨rfl, rfl, rfl⟩
  obtain ⟨h1, h2, h3⟩ := hspec
  obtain ⟨h4, h5⟩ := newEvent_allday hn
  refine ⟨h4.trans h3, ?_, ?_⟩
  · intro had
    rw [h3, if_neg (by simp [had])] at h5
    rw [← h1, ← h2]; exact h5
  · intro had
    rw [h3, if_pos had] at h5
    obtain ⟨st, hst, hst1, hst2, _, _, hst3⟩ := (C52_meaning tz v x dur ad).1 hm
    have hdate := hst2.1 had
    have hx0 : x % DAY = 0 := by
      cases st with
      | date d => cases hst1; exact Int.mul_emod_left _ _
      | naive t => exact absurd hdate (fun h => h)
      | aware t off => exact absurd hdate (fun h => h)
    constructor
    · have := h5.1
      unfold IsMidnightOf at this
      rw [h1] at this
      unfold DAY at this hx0
      omega
    · intro he hd
      have hz := hst3 he hd
      rw [h2, hz] at h5
      obtain ⟨k, hk, hk'⟩ := h5.2 (by intro y hy; injection hy with hy; omega)
      have := hk.2.2 1 (by omega) (by intro y hy; injection hy with hy; unfold DAY; omega)
      have hk1 := hk.1
      have : k = 1 := by omega
      rw [hk', this, Int.one_mul]

/-- C52, concrete: 12:00 with offset +2h, local offset +1h, is 11:00; the end overrides a contradicting
duration; the end need not be after the start. -/
example : getDtstartDuration (fun _ => Sample.HOUR)
    { uid := none, dtstart := some (.aware (Sample.day + 12 * Sample.HOUR) (2 * Sample.HOUR))
      dtend := some (.naive (Sample.day + 10 * Sample.HOUR)), duration := some DAY } =
    .ok (Sample.day + 11 * Sample.HOUR, -Sample.HOUR, false) := by decide +kernel

/-! ### C53 -/

/-- Every newline gets its carriage return. -/
def crlf (t : List Char) : List Char := t.flatMap (fun c => if c = '\n' then ['\r', '\n'] else [c])

theorem crlf_cons_nl (t : List Char) : crlf ('\n' :: t) = '\r' :: '\n' :: crlf t := rfl

theorem crlf_cons {ch : Char} (h : ch ≠ '\n') (t : List Char) : crlf (ch :: t) = ch :: crlf t := by
  unfold crlf
  rw [List.flatMap_cons, if_neg h]
  rfl

theorem repairText_none {t : List Char} (h : '\n' ∉ t) : repairText t = t := by
  unfold repairText
  have : t.findIdx? (· = '\n') = none := by
    rw [List.findIdx?_eq_none_iff]
    intro x hx
    simp only [decide_eq_false_iff_not]
    rintro rfl; exact h hx
  rw [this]

theorem repairText_some {pre post : List Char} (h : '\n' ∉ pre) :
    repairText (pre ++ '\n' :: post) =
      if pre ≠ [] ∧ pre.getLast? ≠ some '\r' then crlf (pre ++ '\n' :: post) else pre ++ '\n' :: post := by
  have hidx : (pre ++ '\n' :: post).findIdx? (fun x => decide (x = '\n')) = some pre.length := by
    rw [List.findIdx?_append]
    have : pre.findIdx? (fun x => decide (x = '\n')) = none := by
      rw [List.findIdx?_eq_none_iff]
      intro x hx
      simp only [decide_eq_false_iff_not]
      rintro rfl; exact h hx
    rw [this, List.findIdx?_cons]
    simp
  unfold repairText
  rw [hidx]
  simp only []
  by_cases hp : pre = []
  · subst hp; simp
  · have hlen : 0 < pre.length := List.length_pos_iff.2 hp
    have hget : (pre ++ '\n' :: post)[pre.length - 1]? = pre.getLast? := by
      rw [List.getElem?_append_left (by omega), List.getLast?_eq_getElem?]
    rw [if_pos hlen, hget]
    simp only [ne_eq, hp, not_false_eq_true, true_and]
    rfl

/-- Splitting at the first newline. -/
theorem first_newline (t : List Char) : '\n' ∉ t ∨ ∃ pre post, t = pre ++ '\n' :: post ∧ '\n' ∉ pre := by
  induction t with
  | nil => exact Or.inl (by simp)
  | cons ch t ih =>
    by_cases hc : ch = '\n'
    · subst hc; exact Or.inr ⟨[], t, rfl, by simp⟩
    · have hc' : ¬ '\n' = ch := fun h => hc h.symm
      rcases ih with h | ⟨pre, post, rfl, h⟩
      · exact Or.inl (by simp [hc', h])
      · exact Or.inr ⟨ch :: pre, post, rfl, by simp [hc', h]⟩

theorem crlf_repaired (t : List Char) : Repaired (crlf t) := by
  induction t with
  | nil =>
    intro pre post h
    have := congrArg List.length h
    simp [crlf] at this
  | cons ch t ih =>
    intro pre post h
    by_cases hc : ch = '\n'
    · subst hc
      rw [crlf_cons_nl] at h
      match pre, h with
      | [], h => injection h with h _; exact absurd h (by decide)
      | [x], h => injection h with h _; subst h; rfl
      | x :: y :: pre, h =>
        injection h with _ h
        injection h with _ h
        have := ih pre post h
        rw [List.getLast?_cons_cons]
        cases pre with
        | nil => cases this
        | cons z pre => rw [List.getLast?_cons_cons]; exact this
    · rw [crlf_cons hc] at h
      cases pre with
      | nil => injection h with h _; exact absurd h hc
      | cons x pre =>
        injection h with _ h
        have := ih pre post h
        cases pre with
        | nil => cases this
        | cons z pre => rw [List.getLast?_cons_cons]; exact this

/-- A text whose first newline is in order (or that has none, or starts with one) is returned as it is. -/
theorem repairText_cases (t : List Char) :
    (FirstIsBare t ∧ repairText t = crlf t) ∨ (¬ FirstIsBare t ∧ repairText t = t) := by
  rcases first_newline t with h | ⟨pre, post, rfl, h⟩
  · right
    refine ⟨?_, repairText_none h⟩
    rintro ⟨pre, post, rfl, _⟩
    exact h (by simp)
  · rw [repairText_some h]
    by_cases hb : pre ≠ [] ∧ pre.getLast? ≠ some '\r'
    · rw [if_pos hb]; exact Or.inl ⟨⟨pre, post, rfl, h, hb.1, hb.2⟩, rfl⟩
    · rw [if_neg hb]
      refine Or.inr ⟨?_, rfl⟩
      rintro ⟨pre', post', heq, h1, h2⟩
      have : pre = pre' := by
        clear hb h2
        induction pre generalizing pre' with
        | nil =>
          cases pre' with
          | nil => rfl
          | cons x pre' => injection heq with hx _; subst hx; exact absurd (List.mem_cons_self ..) h1
        | cons x pre ih =>
          cases pre' with
          | nil => injection heq with hx _; subst hx; exact absurd (List.mem_cons_self ..) h
          | cons y pre' =>
            injection heq with hx heq
            subst hx
            rw [ih (fun hm => h (List.mem_cons_of_mem _ hm)) pre' heq (fun hm => h1 (List.mem_cons_of_mem _ hm))]
      subst this
      exact hb h2

/-- C53: a text in which every newline is preceded by a carriage return is not changed. -/
theorem C53_unchanged (t : List Char) (h : Repaired t) : repairText t = t := by
  rcases repairText_cases t with ⟨⟨pre, post, rfl, _, _, hne⟩, _⟩ | ⟨_, h'⟩
  · exact absurd (h pre post rfl) hne
  · exact h'

/-- C53: repairing twice is repairing once. -/
theorem C53_idempotent (t : List Char) : repairText (repairText t) = repairText t := by
  rcases repairText_cases t with ⟨_, h⟩ | ⟨_, h⟩
  · rw [h]; exact C53_unchanged _ (crlf_repaired t)
  · rw [h, h]

/-- C53: nothing but carriage returns is added or removed. -/
theorem C53_content (t : List Char) : withoutCR (repairText t) = withoutCR t := by
  rcases repairText_cases t with ⟨hb, h⟩ | ⟨_, h⟩
  · rw [h]
    clear h hb
    induction t with
    | nil => rfl
    | cons ch t ih =>
      by_cases hc : ch = '\n'
      · subst hc
        rw [crlf_cons_nl]
        unfold withoutCR at ih ⊢
        rw [List.filter_cons_of_neg (by decide), List.filter_cons_of_pos (by decide),
          List.filter_cons_of_pos (by decide), ih]
      · rw [crlf_cons hc]
        unfold withoutCR at ih ⊢
        rw [List.filter_cons, List.filter_cons, ih]
  · rw [h]

/-- C53: after the repair every newline is preceded by a carriage return, exactly if this was so before or
the first newline was neither at the beginning nor preceded by a carriage return.  Missing: the other texts,
for which it is false (`C53_counterexample`). -/
theorem C53_repaired_partial (t : List Char) : Repaired (repairText t) ↔ Repaired t ∨ FirstIsBare t := by
  rcases repairText_cases t with ⟨h1, h⟩ | ⟨h1, h⟩
  · rw [h]; exact ⟨fun _ => Or.inr h1, fun _ => crlf_repaired t⟩
  · rw [h]; exact ⟨Or.inl, fun h' => h'.resolve_right h1⟩

/-- C53 is false: a text starting with a newline, or with a bare newline after a CR LF, stays as it is; and a
CR LF after a bare newline becomes CR CR LF. -/
theorem C53_counterexample :
    (¬ Repaired (repairText "\nBEGIN".toList)) ∧ (¬ Repaired (repairText "A\r\nB\n".toList)) ∧
    repairText "A\nB\r\n".toList = "A\r\nB\r\r\n".toList := by
  refine ⟨?_, ?_, by decide +kernel⟩
  · intro h; have := h [] "BEGIN".toList (by decide +kernel); cases this
  · intro h; have := h "A\r\nB".toList [] (by decide +kernel); revert this; decide +kernel

/-- C53, concrete. -/
example : repairText "A\nB\n".toList = "A\r\nB\r\n".toList ∧ FirstIsBare "A\nB\n".toList :=
  ⟨by decide +kernel, "A".toList, "B\n".toList, by decide +kernel⟩

/-! ### C62 -/

/-- C62: when an import raises, no event is gone, and no event changed whose uid is not in the data; when the
period query or the parser raises, the store is as before.  Missing: events of the data before and at the
failing one, which stay changed (`C62_counterexample`). -/
theorem C62_partial (w : World) (hw : w.store.WF) (f : Fault) (w' : World)
    (h : w.import_ parse tz c src text b e cr sync = (w', .error f)) :
    (∀ u, w.store.hasEvent u = true → w'.store.hasEvent u = true) ∧
    (∀ u, (∀ vs, parse (repairText text) = .ok (some vs) → ∀ v ∈ vs, v.uid ≠ some u) →
      w'.store.getEvent u = w.store.getEvent u) ∧
    (parse (repairText text) = .error f ∨ c.getEvents src w.store b e cr = .error f → w' = w) := by
  refine ⟨?_, ?_, ?_⟩
  · intro u hu
    have := C47_no_deletion parse tz c src text b e cr sync w hw (Or.inr (by rw [h]; simp)) u hu
    rw [h] at this
    exact this
  · intro u hu
    rcases import_cases w parse tz c src text b e cr sync with ⟨f', _, h'⟩ | ⟨l, hl, h'⟩
    · rw [h] at h'; injection h' with h' _; rw [h']
    · rcases h' with ⟨f, _, h'⟩ | ⟨_, h'⟩ | ⟨vs, hvs, ⟨f, _, h'⟩ | ⟨uids, _, h'⟩⟩
      · rw [h] at h'; injection h' with h' _; rw [h']
      · rw [h] at h'; injection h' with _ h'; cases h'
      · rw [h] at h'; injection h' with h' _
        rw [h']
        unfold Storage.getEvent
        rw [importLoop_other tz c src _ vs w (hu vs hvs)]
      · exfalso
        rw [h] at h'
        cases sync with
        | false => rw [if_neg (by simp)] at h'; injection h' with _ h'; cases h'
        | true =>
          rw [if_pos rfl] at h'
          have := (import_removal w hw tz c src b e cr (vs := vs) (uids := uids) hl).1
          rw [← h'] at this
          cases this
  · intro hh
    rcases import_cases w parse tz c src text b e cr sync with ⟨f', _, h'⟩ | ⟨l, hl, h'⟩
    · rw [h] at h'; injection h' with h' _
    · rcases hh with hh | hh
      · rcases h' with ⟨f, _, h'⟩ | ⟨hx, h'⟩ | ⟨vs, hx, _⟩
        · rw [h] at h'; injection h' with h' _
        · rw [hh] at hx; cases hx
        · rw [hh] at hx; cases hx
      · rw [hl] at hh; cases hh

/-- Where a loop raises. -/
theorem importLoop_prefix (known : List Uid) {f : Fault} (vs : List VEvent) : ∀ w : World,
    (World.importLoop tz c src known w vs).2 = .error f →
    ∃ done v rest uids, vs = done ++ v :: rest ∧ (World.importLoop tz c src known w done).2 = .ok uids ∧
      ((v.uid = none ∧ (World.importLoop tz c src known w vs).1 = (World.importLoop tz c src known w done).1) ∨
      ∃ uid, v.uid = some uid ∧
        ((World.importLoop tz c src known w done).1.importOne tz c src known uid v).2 = .error f ∧
        (World.importLoop tz c src known w vs).1 =
          ((World.importLoop tz c src known w done).1.importOne tz c src known uid v).1) := by
  induction vs with
  | nil => intro w h; cases h
  | cons v rest ih =>
    intro w h
    rcases importLoop_step tz c src known w v rest with ⟨hno, h1⟩ | ⟨uid, huid, ⟨f', hf, h1⟩ | ⟨hok, h1⟩⟩
    · exact ⟨[], v, rest, [], rfl, rfl, Or.inl ⟨hno, by rw [h1]; rfl⟩⟩
    · rw [h1] at h
      injection h with h
      subst h
      exact ⟨[], v, rest, [], rfl, rfl, Or.inr ⟨uid, huid, hf, by rw [h1]; rfl⟩⟩
    · rw [h1] at h
      simp only [] at h
      cases hr : (World.importLoop tz c src known (w.importOne tz c src known uid v).1 rest).2 with
      | ok us => rw [hr] at h; cases h
      | error f' =>
        rw [hr] at h
        injection h with h
        subst h
        obtain ⟨done, v', rest', uids, rfl, hd, hcase⟩ := ih _ hr
        have hdone : World.importLoop tz c src known w (v :: done) =
            ((World.importLoop tz c src known (w.importOne tz c src known uid v).1 done).1, .ok (uid :: uids)) := by
          rcases importLoop_step tz c src known w v done with ⟨hno, _⟩ | ⟨uid', huid', ⟨f', hf, _⟩ | ⟨_, h2⟩⟩
          · rw [huid] at hno; cases hno
          · rw [huid] at huid'; injection huid' with huid'; subst huid'; rw [hok] at hf; cases hf
          · rw [huid] at huid'; injection huid' with huid'; subst huid'
            rw [h2, hd]; rfl
        refine ⟨v :: done, v', rest', uid :: uids, rfl, by rw [hdone], ?_⟩
        rw [hdone, h1]
        exact hcase

/-- C62, what remains: an import that raises while importing leaves the store as an import of the components
before the failing one, except for the event under the uid of the failing component, and also there if the
calendar does not show this event.  Missing: that nothing remains, which is false (`C62_counterexample`). -/
theorem C62_prefix_partial (w : World) (hw : w.store.WF) (f : Fault) (w' : World)
    (h : w.import_ parse tz c src text b e cr sync = (w', .error f)) (vs : List VEvent)
    (hvs : parse (repairText text) = .ok (some vs)) (l : List Event) (hl : c.getEvents src w.store b e cr = .ok l) :
    ∃ done v rest w1, vs = done ++ v :: rest ∧
      w.import_ (fun _ => .ok (some done)) tz c src text b e cr false = (w1, .ok ()) ∧
      (∀ u, v.uid ≠ some u → w'.store.getEvent u = w1.store.getEvent u) ∧
      ((∀ ev ∈ l, v.uid ≠ some ev.uid) → ∀ u, w'.store.getEvent u = w1.store.getEvent u) := by
  rcases import_cases w parse tz c src text b e cr sync with ⟨f', hx, h'⟩ | ⟨l', hl', h'⟩
  · rw [hl] at hx; cases hx
  · rw [hl] at hl'; injection hl' with hl'; subst hl'
    rcases h' with ⟨f, hx, _⟩ | ⟨hx, _⟩ | ⟨vs', hvs', ⟨f', hf, h'⟩ | ⟨uids, _, h'⟩⟩
    · rw [hvs] at hx; cases hx
    · rw [hvs] at hx; cases hx
    · rw [hvs] at hvs'; injection hvs' with hvs'; injection hvs' with hvs'; subst hvs'
      obtain ⟨done, v, rest, uids, hsplit, hd, hcase⟩ := importLoop_prefix tz c src _ vs w hf
      refine ⟨done, v, rest, (World.importLoop tz c src (l.map (·.uid)).dedup w done).1, hsplit, ?_, ?_⟩
      · rcases import_cases w (fun _ => .ok (some done)) tz c src text b e cr false with
          ⟨f', hx, _⟩ | ⟨l', hl', h2⟩
        · rw [hl] at hx; cases hx
        · rw [hl] at hl'; injection hl' with hl'; subst hl'
          rcases h2 with ⟨_, hx, _⟩ | ⟨hx, _⟩ | ⟨vs', hvs', ⟨f', hf', _⟩ | ⟨uids', _, h2⟩⟩
          · cases hx
          · cases hx
          · injection hvs' with hvs'; injection hvs' with hvs'; subst hvs'
            rw [hd] at hf'; cases hf'
          · injection hvs' with hvs'; injection hvs' with hvs'; subst hvs'
            rw [h2, if_neg (by simp)]
      · rw [h] at h'
        injection h' with h' _
        subst h'
        rcases hcase with ⟨_, hc⟩ | ⟨uid, huid, hone, hc⟩
        · rw [hc]; exact ⟨fun _ _ => rfl, fun _ _ => rfl⟩
        · rw [hc]
          have h1 : ∀ u, u ≠ uid → _ := fun u hu => importOne_other
            (World.importLoop tz c src (l.map (·.uid)).dedup w done).1 tz c src (l.map (·.uid)).dedup uid v hu
          refine ⟨fun u hu => ?_, fun hnot u => ?_⟩
          · unfold Storage.getEvent
            rw [h1 u (fun hx => hu (by rw [hx, huid]))]
          · unfold Storage.getEvent
            by_cases hu : u = uid
            · subst hu
              obtain ⟨a1, a2⟩ := importOne_at tz c src (l.map (·.uid)).dedup
                (World.importLoop tz c src (l.map (·.uid)).dedup w done).1 u v
              have hk : u ∉ (l.map (·.uid)).dedup := by
                intro hk
                obtain ⟨ev, hev, he, _⟩ := (known_iff hw hl u).1 hk
                exact hnot ev hev (by rw [huid, he])
              rw [a1]
              rw [a2] at hone
              unfold importAt at hone ⊢
              rw [if_neg hk] at hone ⊢
              cases hg : Dict.get? (World.importLoop tz c src (l.map (·.uid)).dedup w done).1.store.events u with
              | some ev => rfl
              | none =>
                rw [hg] at hone
                simp only [] at hone ⊢
                cases hs : importSpec tz c src v with
                | error f => rfl
                | ok spec =>
                  rw [hs] at hone
                  simp only [] at hone ⊢
                  cases hn : newEvent u spec with
                  | error f => rfl
                  | ok ev => rw [hn] at hone; cases hone
            · rw [h1 u hu]
    · exfalso
      rw [h] at h'
      cases sync with
      | false => rw [if_neg (by simp)] at h'; injection h' with _ h'; cases h'
      | true =>
        rw [if_pos rfl] at h'
        have := (import_removal w hw tz c src b e cr (vs := vs') (uids := uids) hl).1
        rw [← h'] at this
        cases this

/-- C62 is false: the first component is imported although the second, without a start, makes the import
raise; and an existing event is left half-way edited by a component with an unknown role. -/
theorem C62_counterexample :
    (let r := (freshWorld "st" "host").import_ (fun _ => .ok (some
        [Sample.birthday, { uid := some "y", dtstart := none }])) (fun _ => 0) Sample.cal Sample.src [] none none none true
     r.2 = raise .AssertionError ∧ r.1.store.hasEvent "b" = true) ∧
    (let w := (freshWorld "st" "host").run [Sample.imp [Sample.birthday] false]
     let r := w.import_ (fun _ => .ok (some
        [{ Sample.birthday with summary := some "party", attendees := [{ addr := "bob", role := some "GUEST" }] }]))
        (fun _ => 0) Sample.cal Sample.src [] none none none true
     r.2 = raise .AssertionError ∧ (r.1.store.getEvent "b").map (·.title) = .ok "party") := by decide +kernel

end CalCore
