import Verif.Lemmas.SourceStore
import Verif.Lemmas.SourceUtil
import Verif.Lemmas.Blocked
/- Running the source text of `getBlockedPeriods` and `getFreePeriods`. -/
namespace CalCore.Lang
set_option linter.unusedSectionVars false
variable [Source.Globals]

open Spec

/-- The dictionary of blocked periods. -/
def blockDict (acc : List (Int × Int)) : Val := .dict (acc.map (fun p => (dtPair p, .none)))

theorem eq_dtPair (p q : Int × Int) : Val.eq (dtPair p) (dtPair q) = .ok (decide (p = q)) := by
  rw [dtPair, dtPair, Val.eq, Val.eqs, Val.eq]
  by_cases h1 : p.1 = q.1
  · by_cases h2 : p.2 = q.2
    · simp [h1, h2, Val.eqs, Val.eq, Prod.ext_iff]
    · simp [h1, h2, Val.eqs, Val.eq, Prod.ext_iff]
  · simp [h1, Prod.ext_iff]

theorem setItem_block (p : Int × Int) (acc : List (Int × Int)) :
    setItem (dtPair p) .none (acc.map (fun p => (dtPair p, .none)))
    = .ok ((if p ∈ acc then acc else acc ++ [p]).map (fun p => (dtPair p, .none))) := by
  induction acc with
  | nil => rfl
  | cons q acc ih =>
    rw [List.map_cons]
    unfold setItem
    rw [eq_dtPair, ih]
    by_cases h : q = p
    · subst h; simp
    · by_cases h' : p ∈ acc
      · simp [h, h']
      · have h2 : ¬ p = q := fun e => h e.symm
        simp [h, h', h2]

theorem contains_declined (o : Option String) :
    contains (ofOption .str o) [.str "DECLINED", .str "DELEGATED"] = .ok (decide (o = some "DECLINED") || decide (o = some "DELEGATED")) := by
  unfold contains contains contains
  rw [eq_str_opt, eq_str_opt]
  simp only [eq_comm (b := o)]
  by_cases h : o = some "DECLINED"
  · simp [h]
  · by_cases h' : o = some "DELEGATED" <;> simp [h, h']

/-! ### the loop over the segments -/

/-- The environment of `getBlockedPeriods`. -/
def blkEnv (self atts : Val) (b en tb te : Int) (blk : Val) (a cr occ ds de dst den d ed nd : Option Val) : Env :=
  [("self", some self), ("attendees", some atts), ("period", some (ofPeriod (some b) (some en))),
   ("time_period", some (.tuple [.time tb, .time te])), ("blocked_periods", some blk), ("begins", some (.datetime b)),
   ("ends", some (.datetime en)), ("time_begins", some (.time tb)), ("time_ends", some (.time te)), ("attendee", a),
   ("search_criteria", cr), ("occ", occ), ("dtstart", ds), ("dtend", de), ("day_start", dst), ("day_end", den), ("d", d),
   ("end_d", ed), ("next_day", nd)]

/-- One iteration of `blockLoop`. -/
def blockStep (b en tb te : Int) (a : AttId) (acc : List (Int × Int)) (occ : Occurrence Event) : Res (List (Int × Int)) :=
  if ¬ blocks occ.original a then .ok acc
  else do
    let dtend ← dtAdd occ.dtstart occ.duration
    if dtend < b then .ok acc
    else if occ.dtstart ≥ en then .ok acc
    else
      let dayStart := combine (dtDate occ.dtstart) tb
      let dtstart := if occ.dtstart < dayStart then dayStart else occ.dtstart
      let dayEnd := combine (dtDate dtstart) te
      let dtend := if dtend ≥ dayEnd then dayEnd else dtend
      .ok (if (dtstart, dtend) ∈ acc then acc else acc ++ [(dtstart, dtend)])

theorem blockLoop_fold (b en tb te : Int) (a : AttId) (l : List (Occurrence Event)) :
    ∀ acc, l.foldlM (blockStep b en tb te a) acc = blockLoop b en tb te a l acc := by
  induction l with
  | nil => intro acc; rfl
  | cons o l ih =>
    intro acc
    rw [List.foldlM_cons]
    unfold blockLoop blockStep
    by_cases h : blocks o.original a = true
    · simp only [h, not_true_eq_false, ↓reduceIte]
      cases dtAdd o.dtstart o.duration with
      | error f => rfl
      | ok y =>
        simp only [ok_bind]
        by_cases h1 : y < b
        · simp only [h1, ↓reduceIte, ok_bind]; exact ih acc
        · by_cases h2 : o.dtstart ≥ en
          · simp only [h1, h2, ↓reduceIte, ok_bind]; exact ih acc
          · simp only [h1, h2, ↓reduceIte, ok_bind]; exact ih _
    · simp only [h]
      exact ih acc

/-- The values of the variables between two iterations. -/
def BlkInv (self atts : Val) (b en tb te : Int) (a cr : Option Val) (acc : List (Int × Int)) (s : State) : Prop :=
  ∃ occ ds de dst den, s = ⟨blkEnv self atts b en tb te (blockDict acc) a cr occ ds de dst den none none none, []⟩

/-- `if dtstart < day_start: dtstart = day_start` -/
def startStmt : Stmt := .ite (.cmp .lt (.var "dtstart") (.var "day_start")) [.assign (.name "dtstart") (.var "day_start")] []

/-- `if dtend >= day_end: dtend = day_end` -/
def endStmt : Stmt := .ite (.cmp .ge (.var "dtend") (.var "day_end")) [.assign (.name "dtend") (.var "day_end")] []

theorem blocked_loop2 : Source.StorageManagerBase_getBlockedPeriods_loop2 = [
  .ite (.or (.attr (.attr (.var "occ") "original") "transparent") (.cmp .eq (.attr (.attr (.var "occ") "original") "status") (.const (.str "CANCELED")))) [
    .continue] [],
  .ite (.cmp .isIn (.method (.attr (.var "occ") "original") "getParticipationStatus" [(.var "attendee")] []) (.list [(.const (.str "DECLINED")), (.const (.str "DELEGATED"))])) [
    .continue] [],
  .assign (.name "dtstart") (.attr (.var "occ") "dtstart"),
  .assign (.name "dtend") (.bin .add (.var "dtstart") (.attr (.var "occ") "duration")),
  .ite (.cmp .lt (.var "dtend") (.var "begins")) [.continue] [],
  .ite (.cmp .ge (.var "dtstart") (.var "ends")) [.continue] [],
  .assign (.name "day_start") (.prim .combine [(.meth (.var "dtstart") .date [] []), (.var "time_begins")] []),
  startStmt,
  .assign (.name "day_end") (.prim .combine [(.meth (.var "dtstart") .date [] []), (.var "time_ends")] []),
  endStmt,
  .assign (.item "blocked_periods" (.tuple [(.var "dtstart"), (.var "dtend")])) (.const .none)] := rfl

theorem start_step (G : Ctx) (W : Nat) (self atts : Val) (b en tb te : Int) (blk : Val) (a cr occ de den d ed nd : Option Val) (x y : Int) :
    exec G W startStmt ⟨blkEnv self atts b en tb te blk a cr occ (some (.datetime x)) de (some (.datetime y)) den d ed nd, []⟩
    = (⟨blkEnv self atts b en tb te blk a cr occ (some (.datetime (if x < y then y else x))) de (some (.datetime y)) den d ed nd, []⟩, .next) := by
  by_cases h : x < y
  · lang [startStmt, blkEnv, h]
  · lang [startStmt, blkEnv, h]

theorem end_step (G : Ctx) (W : Nat) (self atts : Val) (b en tb te : Int) (blk : Val) (a cr occ ds dst d ed nd : Option Val) (x y : Int) :
    exec G W endStmt ⟨blkEnv self atts b en tb te blk a cr occ ds (some (.datetime x)) dst (some (.datetime y)) d ed nd, []⟩
    = (⟨blkEnv self atts b en tb te blk a cr occ ds (some (.datetime (if x ≥ y then y else x))) dst (some (.datetime y)) d ed nd, []⟩, .next) := by
  by_cases h : y ≤ x
  · lang [endStmt, blkEnv, h, ge_iff_le]
  · lang [endStmt, blkEnv, h, ge_iff_le]

theorem blocked_step (W n : Nat) (L : Listing) (self atts : Val) (b en tb te : Int) (a : AttId) (cr : Option Val)
    (acc : List (Int × Int)) (occ : Occurrence Event) (s : State) (hs : BlkInv self atts b en tb te (some (ofAttendee L a)) cr acc s) :
    FollowsC (BlkInv self atts b en tb te (some (ofAttendee L a)) cr) (blockStep b en tb te a acc occ)
      (forBody (Source.prog.ctx W (n + 2)) W (.name "occ") Source.StorageManagerBase_getBlockedPeriods_loop2 (ofOcc (ofEvent L) occ) s) := by
  obtain ⟨occ', ds, de, dst, den, rfl⟩ := hs
  have h1 := getStatus_prog W n L occ.original a
  rw [ofEvent] at h1
  unfold blockStep blocks
  rw [blocked_loop2]
  cases ht : occ.original.transparent with
  | true =>
    exact FollowsC.cont (c := acc) (by simp) (by
      lang [forBody, blkEnv, ofOcc, ofEvent, event_transparent, ht]
      rfl) ⟨_, _, _, _, _, rfl⟩
  | false =>
    by_cases hc : occ.original.status = "CANCELED"
    · exact FollowsC.cont (c := acc) (by simp [hc]) (by
        lang [forBody, blkEnv, ofOcc, ofEvent, event_transparent, event_status, ht, hc]
        rfl) ⟨_, _, _, _, _, rfl⟩
    · cases hd : (decide (occ.original.getStatus a = some "DECLINED") || decide (occ.original.getStatus a = some "DELEGATED")) with
      | true =>
        have hk := contains_declined (occ.original.getStatus a)
        rw [hd] at hk
        exact FollowsC.cont (c := acc) (by simp [hc]) (by
          lang [forBody, blkEnv, ofOcc, ofEvent, event_transparent, event_status, ht, hc, ctx_method, method_getParticipationStatus, ctx_call, h1, hk]
          rfl) ⟨_, _, _, _, _, rfl⟩
      | false =>
        have hk := contains_declined (occ.original.getStatus a)
        rw [hd] at hk
        have hb : blocks occ.original a = true := by simp [blocks, ht, hc, hd]
        cases hy : dtAdd occ.dtstart occ.duration with
        | error f =>
          exact FollowsC.error (f := f) (by simp [hc, error_bind]) (by
            lang [forBody, blkEnv, ofOcc, ofEvent, event_transparent, event_status, ht, hc, ctx_method, method_getParticipationStatus, ctx_call, h1, hk,
              hy, lift_error]
            rfl)
        | ok y =>
          by_cases hyb : y < b
          · exact FollowsC.cont (c := acc) (by simp [hc, hyb, ok_bind]) (by
              lang [forBody, blkEnv, ofOcc, ofEvent, event_transparent, event_status, ht, hc, ctx_method, method_getParticipationStatus, ctx_call, h1, hk,
                hy, hyb]
              rfl) ⟨_, _, _, _, _, rfl⟩
          · by_cases hse : en ≤ occ.dtstart
            · exact FollowsC.cont (c := acc) (by simp [hc, hse, ok_bind]) (by
                lang [forBody, blkEnv, ofOcc, ofEvent, event_transparent, event_status, ht, hc, ctx_method, method_getParticipationStatus, ctx_call, h1, hk,
                  hy, hyb, hse]
                rfl) ⟨_, _, _, _, _, rfl⟩
            · have hst := start_step (Source.prog.ctx W (n + 2)) W self atts b en tb te (blockDict acc) (some (ofAttendee L a)) cr
                (some (ofOcc (ofEvent L) occ)) (some (.datetime y)) den none none none occ.dtstart (combine (dtDate occ.dtstart) tb)
              have hen := end_step (Source.prog.ctx W (n + 2)) W self atts b en tb te (blockDict acc) (some (ofAttendee L a)) cr
                (some (ofOcc (ofEvent L) occ))
                (some (.datetime (if occ.dtstart < combine (dtDate occ.dtstart) tb then combine (dtDate occ.dtstart) tb else occ.dtstart)))
                (some (.datetime (combine (dtDate occ.dtstart) tb))) none none none y
                (combine (dtDate (if occ.dtstart < combine (dtDate occ.dtstart) tb then combine (dtDate occ.dtstart) tb else occ.dtstart)) te)
              generalize hS : (if occ.dtstart < combine (dtDate occ.dtstart) tb then combine (dtDate occ.dtstart) tb else occ.dtstart) = S at hst hen
              generalize hE : (if y ≥ combine (dtDate S) te then combine (dtDate S) te else y) = E at hen
              have hset := setItem_block (S, E) acc
              rw [dtPair] at hset
              simp only [blkEnv, ofOcc, ofEvent, blockDict] at hst hen hset
              refine FollowsC.ok (c := if (S, E) ∈ acc then acc else acc ++ [(S, E)]) ?_ (by
                lang [forBody, blkEnv, ofOcc, ofEvent, blockDict, event_transparent, event_status, ht, hc, ctx_method, method_getParticipationStatus, ctx_call, h1, hk,
                  hy, hyb, hse, hst, hen, hset]
                rfl) ⟨_, _, _, _, _, rfl⟩
              simp [hc, hyb, hse, ok_bind, hS]
              rw [← hE]

/-! ### the loop over the attendees -/

/-- One attendee. -/
def attendeeStep (s : Storage) (b en tb te : Int) (acc : List (Int × Int)) (a : AttId) : Res (List (Int × Int)) := do
  let segs ← s.getOccurrencesSegmented (some b) (some en) (some { attendees := some [a] })
  blockLoop b en tb te a segs acc

theorem attendeeBlocks_fold (s : Storage) (b en tb te : Int) (l : List AttId) :
    ∀ acc, l.foldlM (attendeeStep s b en tb te) acc = s.attendeeBlocks b en tb te l acc := by
  induction l with
  | nil => intro acc; rfl
  | cons a l ih =>
    intro acc
    rw [List.foldlM_cons]
    unfold Storage.attendeeBlocks attendeeStep
    cases s.getOccurrencesSegmented (some b) (some en) (some { attendees := some [a] }) with
    | error f => rfl
    | ok segs =>
      simp only [ok_bind]
      cases blockLoop b en tb te a segs acc with
      | error f => rfl
      | ok acc => exact ih acc

/-- The values of the variables between two attendees. -/
def AttInv (self atts : Val) (b en tb te : Int) (acc : List (Int × Int)) (s : State) : Prop :=
  ∃ a cr occ ds de dst den, s = ⟨blkEnv self atts b en tb te (blockDict acc) a cr occ ds de dst den none none none, []⟩

theorem attendees_step (W n : Nat) (L : Listing) (hL : L.Faithful) (st : Storage) (atts : Val) (b en tb te : Int) (a : AttId)
    (hr : Ready W st (some { attendees := some [a] }) en) (hW : (en / DAY - b / DAY).toNat + 5 ≤ W)
    (acc : List (Int × Int)) (s : State) (hs : AttInv (ofManager L st) atts b en tb te acc s) :
    FollowsC (AttInv (ofManager L st) atts b en tb te) (attendeeStep st b en tb te acc a)
      (forBody (Source.prog.ctx W (n + 8)) W (.name "attendee") Source.StorageManagerBase_getBlockedPeriods_loop1 (ofAttendee L a) s) := by
  obtain ⟨a', cr', occ', ds, de, dst, den, rfl⟩ := hs
  have hc := criteria_new_attendees W (n + 7) L [a]
  have h := manager_segmented W n L hL st (some b) (some en) (some { attendees := some [a] })
    (fun b' en' h1 h2 => by cases h1; cases h2; exact ⟨hr, hW⟩)
  rw [List.map_cons, List.map_nil] at hc
  rw [ofOption_some] at h
  unfold attendeeStep
  cases hx : st.getOccurrencesSegmented (some b) (some en) (some { attendees := some [a] }) with
  | error f =>
    rw [hx, toM_error] at h
    simp only [ofManager] at h
    exact FollowsC.error (f := f) rfl (by
      lang [forBody, Source.StorageManagerBase_getBlockedPeriods_loop1, blkEnv, ofManager, hc, ctx_method, method_manager_segmented, ctx_call, h]
      rfl)
  | ok segs =>
    rw [hx, toM_ok, ofOccs] at h
    have hl := forLoop_fold (g := ofOcc (ofEvent L)) (f := blockStep b en tb te a) segs
      (fun acc o _ s hs => blocked_step W (n + 6) L (ofManager L st) atts b en tb te a
        (some (ofCriteria L { attendees := some [a] })) acc o s hs) acc
      ⟨blkEnv (ofManager L st) atts b en tb te (blockDict acc) (some (ofAttendee L a))
        (some (ofCriteria L { attendees := some [a] })) occ' ds de dst den none none none, []⟩ ⟨_, _, _, _, _, rfl⟩
    rw [blockLoop_fold] at hl
    rw [ok_bind]
    simp only [ofManager, blkEnv] at h hl
    rw [show n + 6 + 2 = n + 8 from rfl] at hl
    cases hb : blockLoop b en tb te a segs acc with
    | error f =>
      obtain ⟨s', hs'⟩ := hl.2 f hb
      exact FollowsC.error (f := f) rfl (by
        lang [forBody, Source.StorageManagerBase_getBlockedPeriods_loop1, blkEnv, ofManager, hc, ctx_method, method_manager_segmented, ctx_call, h, hs']
        rfl)
    | ok acc' =>
      obtain ⟨s', hs', _, _, _, _, _, rfl⟩ := hl.1 acc' hb
      exact FollowsC.ok (c := acc') rfl (by
        lang [forBody, Source.StorageManagerBase_getBlockedPeriods_loop1, blkEnv, ofManager, hc, ctx_method, method_manager_segmented, ctx_call, h, hs']
        rfl) ⟨_, _, _, _, _, _, _, rfl⟩

/-! ### the loop over the days -/

theorem day_div : DAY / DAY = 1 := rfl

theorem day_step (G : Ctx) (W : Nat) (self atts : Val) (b en tb te : Int) (l : List Val) (a cr occ ds de dst den nd : Option Val) (d ed : Int) :
    execs G W Source.StorageManagerBase_getBlockedPeriods_loop3
      ⟨blkEnv self atts b en tb te (.list l) a cr occ ds de dst den (some (.date d)) (some (.date ed)) nd, []⟩
    = match dateAdd d 1 with
      | .error f => (⟨blkEnv self atts b en tb te (.list (l ++ [dtPair (combine d 0, combine d tb)])) a cr occ ds de dst den (some (.date d)) (some (.date ed)) nd, []⟩,
          .stop (ofFault f))
      | .ok next => (⟨blkEnv self atts b en tb te
          (.list (l ++ [dtPair (combine d 0, combine d tb)] ++ [dtPair (combine d te, combine next 0)])) a cr occ ds de dst den
          (some (.date next)) (some (.date ed)) (some (.date next)), []⟩, .next) := by
  cases h : dateAdd d 1 with
  | error f => lang [Source.StorageManagerBase_getBlockedPeriods_loop3, blkEnv, midnight, mkDelta_day, day_div, h, lift_error, dtPair]
  | ok next => lang [Source.StorageManagerBase_getBlockedPeriods_loop3, blkEnv, midnight, mkDelta_day, day_div, h, dtPair]

theorem day_cond (G : Ctx) (self atts : Val) (b en tb te : Int) (l : Val) (a cr occ ds de dst den nd : Option Val) (d ed : Int) :
    whileCond G (.cmp .le (.var "d") (.var "end_d"))
      ⟨blkEnv self atts b en tb te l a cr occ ds de dst den (some (.date d)) (some (.date ed)) nd, []⟩ = .ok (.bool (decide (d ≤ ed))) := by
  rw [whileCond]
  lang [blkEnv]

theorem day_loop (G : Ctx) (V : Nat) (self atts : Val) (b en tb te : Int) (a cr occ ds de dst den : Option Val) (ed : Int) (n : Nat) :
    ∀ (W : Nat) (d : Int) (nd : Option Val) (l : List Val), n ≤ W →
      (∀ w, windowLoop tb te ed n d = .ok w → ∃ d' nd', whileLoop (whileCond G (.cmp .le (.var "d") (.var "end_d")))
          (execs G V Source.StorageManagerBase_getBlockedPeriods_loop3) W
          ⟨blkEnv self atts b en tb te (.list l) a cr occ ds de dst den (some (.date d)) (some (.date ed)) nd, []⟩
        = (⟨blkEnv self atts b en tb te (.list (l ++ w.map dtPair)) a cr occ ds de dst den d' (some (.date ed)) nd', []⟩, .next))
      ∧ (∀ f, f ≠ .diverge → windowLoop tb te ed n d = .error f → ∃ s', whileLoop (whileCond G (.cmp .le (.var "d") (.var "end_d")))
          (execs G V Source.StorageManagerBase_getBlockedPeriods_loop3) W
          ⟨blkEnv self atts b en tb te (.list l) a cr occ ds de dst den (some (.date d)) (some (.date ed)) nd, []⟩ = (s', .stop (ofFault f))) := by
  induction n with
  | zero =>
    intro W d nd l _
    exact ⟨fun _ h => (by cases h), fun f hf h => by cases h; exact absurd rfl hf⟩
  | succ n ih =>
    intro W d nd l hW
    obtain ⟨W, rfl⟩ : ∃ W', W = W' + 1 := ⟨W - 1, by omega⟩
    unfold windowLoop whileLoop
    rw [day_cond, day_step]
    simp only [truthy_bool]
    by_cases hd : d ≤ ed
    · simp only [hd, ↓reduceIte, decide_true]
      cases hn : dateAdd d 1 with
      | error f =>
        refine ⟨fun _ h => (by cases h), fun f' hf h => ?_⟩
        cases h
        exact ⟨_, rfl⟩
      | ok next =>
        simp only [ok_bind]
        obtain ⟨h1, h2⟩ := ih W next (some (.date next))
          (l ++ [dtPair (combine d 0, combine d tb)] ++ [dtPair (combine d te, combine next 0)]) (by omega)
        constructor
        · intro w h
          rw [bind_ok] at h
          obtain ⟨more, hm, h⟩ := h
          cases h
          obtain ⟨d', nd', h'⟩ := h1 more hm
          refine ⟨d', nd', ?_⟩
          rw [h']
          simp
        · intro f hf h
          rw [bind_error] at h
          rcases h with h | ⟨_, _, h⟩
          · exact h2 f hf h
          · cases h
    · simp only [hd, ↓reduceIte, decide_false, Bool.false_eq_true]
      refine ⟨fun w h => ?_, fun f _ h => by cases h⟩
      cases h
      exact ⟨_, _, by rw [List.map_nil, List.append_nil]⟩

/-! ### `getBlockedPeriods` -/

theorem block_keys (acc : List (Int × Int)) : (acc.map (fun p => (dtPair p, (.none : Val)))).map (fun x => x.1) = acc.map dtPair := by
  simp

theorem removeOverlaps_prog (W n : Nat) (l : List (Int × Int)) :
    Source.prog.call W (n + 1) "removeOverlaps" [.list (l.map dtPair)] [] = .ok (.list ((removeOverlaps l).map dtPair)) := by
  rw [call_eq (d := Source.removeOverlaps) rfl, FunDef.call]
  obtain ⟨s, hs, _⟩ := removeOverlaps_run (Source.prog.ctx W n) W l
  rw [hs]
  rfl

/-- The last day. -/
def lastDay (en : Int) : Res Int := if dtTime en = 0 then dateAdd (dtDate en) (-1) else Except.ok (dtDate en)

/-- `if ends.time() == time(0, 0): end_d -= timedelta(days=1)` -/
def lastDayStmt : Stmt := .ite (.cmp .eq (.meth (.var "ends") .time [] []) (.prim .time [(.const (.int 0)), (.const (.int 0))] [])) [
  .assign (.name "end_d") (.bin .sub (.var "end_d") (.prim .timedelta [] [("days", (.const (.int 1)))]))] []

theorem lastDay_step (G : Ctx) (W : Nat) (self atts : Val) (b en tb te : Int) (l : Val) (a cr occ ds de dst den d nd : Option Val) :
    exec G W lastDayStmt ⟨blkEnv self atts b en tb te l a cr occ ds de dst den d (some (.date (dtDate en))) nd, []⟩
    = match lastDay en with
      | .ok ed => (⟨blkEnv self atts b en tb te l a cr occ ds de dst den d (some (.date ed)) nd, []⟩, .next)
      | .error f => (⟨blkEnv self atts b en tb te l a cr occ ds de dst den d (some (.date (dtDate en))) nd, []⟩, .stop (ofFault f)) := by
  unfold lastDay
  by_cases h : dtTime en = 0
  · simp only [h, ↓reduceIte]
    cases hd : dateAdd (dtDate en) (-1) with
    | error f => lang [lastDayStmt, blkEnv, midnight, mkDelta_day, day_div, h, hd, lift_error]
    | ok ed => lang [lastDayStmt, blkEnv, midnight, mkDelta_day, day_div, h, hd]
  · simp only [h, ↓reduceIte]
    lang [lastDayStmt, blkEnv, midnight, h]

theorem blocked_body : Source.StorageManagerBase_getBlockedPeriods = ⟨.fn,
  [("self", none), ("attendees", none), ("period", none), ("time_period", none)],
  ["blocked_periods", "begins", "ends", "time_begins", "time_ends", "attendee", "search_criteria", "occ", "dtstart", "dtend", "day_start", "day_end", "d", "end_d", "next_day"],
  [.assign (.name "blocked_periods") (.const (.dict [])),
    .assign (.names ["begins", "ends"]) (.var "period"),
    .assign (.names ["time_begins", "time_ends"]) (.var "time_period"),
    .for (.name "attendee") (.var "attendees") Source.StorageManagerBase_getBlockedPeriods_loop1 [],
    .assign (.name "blocked_periods") (.meth (.var "blocked_periods") .keys [] []),
    .assign (.name "d") (.meth (.var "begins") .date [] []),
    .assign (.name "end_d") (.meth (.var "ends") .date [] []),
    lastDayStmt,
    .while (.cmp .le (.var "d") (.var "end_d")) Source.StorageManagerBase_getBlockedPeriods_loop3,
    .ret (.call "removeOverlaps" [(.var "blocked_periods")] [])]⟩ := rfl

theorem ofPeriod_elems (b en : Int) : Val.elems (ofPeriod (some b) (some en)) = .ok [.datetime b, .datetime en] := rfl

theorem lastDay_le {en ed : Int} (h : lastDay en = .ok ed) : ed ≤ en / DAY := by
  unfold lastDay at h
  split at h
  · unfold dateAdd at h
    split at h
    · cases h; simp only [dtDate]; omega
    · cases h
  · cases h; exact Int.le_refl _

theorem manager_blocked (W n : Nat) (L : Listing) (hL : L.Faithful) (s : Storage) (atts : List AttId) (b en tb te : Int)
    (hr : ∀ a ∈ atts, Ready W s (some { attendees := some [a] }) en) (hW : (en / DAY - b / DAY).toNat + 5 ≤ W) :
    Source.prog.call W (n + 9) "StorageManagerBase.getBlockedPeriods"
      [ofManager L s, .list (atts.map (ofAttendee L)), ofPeriod (some b) (some en), .tuple [.time tb, .time te]] []
    = toM (fun l => .list (l.map dtPair)) (s.getBlockedPeriods atts b en tb te) := by
  rw [call_eq (d := Source.StorageManagerBase_getBlockedPeriods) rfl, blocked_body]
  have hl := forLoop_fold (g := ofAttendee L) (f := attendeeStep s b en tb te) atts
    (fun acc a ha st hs => attendees_step W n L hL s (.list (atts.map (ofAttendee L))) b en tb te a (hr a ha) hW acc st hs) []
    ⟨blkEnv (ofManager L s) (.list (atts.map (ofAttendee L))) b en tb te (blockDict []) none none none none none none none none none none, []⟩
    ⟨_, _, _, _, _, _, _, rfl⟩
  rw [attendeeBlocks_fold] at hl
  rw [getBlockedPeriods_eq]
  simp only [blkEnv, blockDict, List.map_nil] at hl
  cases hx : s.attendeeBlocks b en tb te atts [] with
  | error f =>
    obtain ⟨st, hs⟩ := hl.2 f hx
    lang [ofPeriod_elems, hs, error_bind, toM_error]
  | ok acc =>
    obtain ⟨st, hs, a', cr', occ', ds', de', dst', den', rfl⟩ := hl.1 acc hx
    have h1 := lastDay_step (Source.prog.ctx W (n + 8)) W (ofManager L s) (.list (atts.map (ofAttendee L))) b en tb te (.list (acc.map dtPair))
      a' cr' occ' ds' de' dst' den' (some (.date (dtDate b))) none
    rw [ok_bind]
    change _ = toM _ (do
      let endD ← lastDay en
      let window ← windowLoop tb te endD ((endD - dtDate b).toNat + 2) (dtDate b)
      .ok (removeOverlaps (acc ++ window)))
    cases hd : lastDay en with
    | error f =>
      rw [hd] at h1
      simp only [blkEnv] at h1
      lang [ofPeriod_elems, hs, error_bind, toM_error, blkEnv, blockDict, block_keys, h1]
    | ok ed =>
      rw [hd] at h1
      have hle := lastDay_le hd
      obtain ⟨h2, h3⟩ := day_loop (Source.prog.ctx W (n + 8)) W (ofManager L s) (.list (atts.map (ofAttendee L))) b en tb te a' cr' occ' ds' de' dst' den' ed
        ((ed - dtDate b).toNat + 2) W (dtDate b) none (acc.map dtPair) (by simp only [dtDate]; omega)
      rw [ok_bind]
      cases hw : windowLoop tb te ed ((ed - dtDate b).toNat + 2) (dtDate b) with
      | error f =>
        obtain ⟨st', hs'⟩ := h3 f (fun h => windowLoop_ne_diverge tb te ed (dtDate b) (by rw [hw, h])) hw
        simp only [blkEnv] at h1 hs'
        lang [ofPeriod_elems, hs, error_bind, toM_error, blkEnv, blockDict, block_keys, h1, hs']
      | ok w =>
        obtain ⟨d', nd', hs'⟩ := h2 w hw
        have h4 := removeOverlaps_prog W (n + 7) (acc ++ w)
        rw [List.map_append] at h4
        simp only [blkEnv] at h1 hs'
        lang [ofPeriod_elems, hs, ok_bind, toM_ok, blkEnv, blockDict, block_keys, h1, hs', ctx_call, h4]

/-! ### `getFreePeriods` -/

/-- The environment of `getFreePeriods`. -/
def freeEnv (self atts : Val) (b0 en0 tb te : Int) (md : Option Int) (blk : Val) (b en : Int) (res : List Val) (last ds de : Option Val) : Env :=
  [("self", some self), ("attendees", some atts), ("period", some (ofPeriod (some b0) (some en0))),
   ("time_period", some (.tuple [.time tb, .time te])), ("minimal_duration", some (ofOption .delta md)), ("blocked_periods", some blk),
   ("begins", some (.datetime b)), ("ends", some (.datetime en)), ("time_begins", some (.time tb)), ("time_ends", some (.time te)),
   ("free_periods", some (.list res)), ("last_block_begins", last), ("dtstart", ds), ("dtend", de)]

/-- Keep the period between two blocked periods? -/
def keepFree (tb : Int) (md : Option Int) (last s : Int) : Bool := decide (dtTime s ≥ tb ∧ last ≠ s ∧ longEnough md (s - last) = true)

theorem free_step (G : Ctx) (W : Nat) (self atts : Val) (b0 en0 tb te : Int) (md : Option Int) (blk : Val) (b en : Int) (res : List Val)
    (last : Int) (ds de : Option Val) (p : Int × Int) :
    forBody G W (.names ["dtstart", "dtend"]) Source.StorageManagerBase_getFreePeriods_loop1 (dtPair p)
      ⟨freeEnv self atts b0 en0 tb te md blk b en res (some (.datetime last)) ds de, []⟩
    = (⟨freeEnv self atts b0 en0 tb te md blk b en (if keepFree tb md last p.1 then res ++ [dtPair (last, p.1)] else res)
        (some (.datetime p.2)) (some (.datetime p.1)) (some (.datetime p.2)), []⟩, .next) := by
  have hel := elems_dtPair p
  unfold keepFree longEnough
  by_cases h1 : tb ≤ dtTime p.1
  · by_cases h2 : last = p.1
    · have h2 := eq_true h2
      lang [forBody, Source.StorageManagerBase_getFreePeriods_loop1, freeEnv, hel, h1, h2]
      simp
    · cases md with
      | none =>
        lang [forBody, Source.StorageManagerBase_getFreePeriods_loop1, freeEnv, hel, h1, h2, ofOption_none, dtPair]
        simp
      | some m =>
        by_cases h3 : m ≤ p.1 - last
        · lang [forBody, Source.StorageManagerBase_getFreePeriods_loop1, freeEnv, hel, h1, h2, ofOption_some, is_delta_none, h3, dtPair]
          simp
        · lang [forBody, Source.StorageManagerBase_getFreePeriods_loop1, freeEnv, hel, h1, h2, ofOption_some, is_delta_none, h3, dtPair]
          simp
  · lang [forBody, Source.StorageManagerBase_getFreePeriods_loop1, freeEnv, hel, h1]
    simp

theorem free_loop (G : Ctx) (W : Nat) (self atts : Val) (b0 en0 tb te : Int) (md : Option Int) (blk : Val) (b en : Int) (l : List (Int × Int)) :
    ∀ (res : List Val) (last : Int) (ds de : Option Val), ∃ kept last' ds' de',
      forLoop (forBody G W (.names ["dtstart", "dtend"]) Source.StorageManagerBase_getFreePeriods_loop1) (l.map dtPair)
        ⟨freeEnv self atts b0 en0 tb te md blk b en res (some (.datetime last)) ds de, []⟩
      = (⟨freeEnv self atts b0 en0 tb te md blk b en (res ++ kept.map dtPair) (some (.datetime last')) ds' de', []⟩, .next)
      ∧ freeLoop tb en md last l = kept ++ freeLoop tb en md last' [] := by
  induction l with
  | nil => intro res last ds de; exact ⟨[], last, ds, de, by simp [forLoop], by simp⟩
  | cons p l ih =>
    intro res last ds de
    rw [List.map_cons]
    unfold forLoop
    rw [free_step]
    obtain ⟨kept, last', ds', de', h1, h2⟩ := ih (if keepFree tb md last p.1 then res ++ [dtPair (last, p.1)] else res) p.2
      (some (.datetime p.1)) (some (.datetime p.2))
    refine ⟨if keepFree tb md last p.1 then (last, p.1) :: kept else kept, last', ds', de', ?_, ?_⟩
    · simp only []
      rw [h1]
      cases keepFree tb md last p.1 <;> simp
    · obtain ⟨s, e⟩ := p
      have h0 : freeLoop tb en md last ((s, e) :: l) = if dtTime s ≥ tb ∧ last ≠ s ∧ longEnough md (s - last) = true then
          (last, s) :: freeLoop tb en md e l else freeLoop tb en md e l := by rw [freeLoop]
      rw [h0, h2]
      unfold keepFree
      by_cases h : dtTime s ≥ tb ∧ last ≠ s ∧ longEnough md (s - last) = true
      · rw [if_pos h]; simp [h]
      · rw [if_neg h]; simp [h]

/-- `if begins < combine(begins.date(), time_begins): ...` -/
def beginsStmt : Stmt := .ite (.cmp .lt (.var "begins") (.prim .combine [(.meth (.var "begins") .date [] []), (.var "time_begins")] [])) [
  .assign (.name "begins") (.prim .combine [(.meth (.var "begins") .date [] []), (.var "time_begins")] [])] []

/-- `if ends > combine(ends.date(), time_ends): ...` -/
def endsStmt : Stmt := .ite (.cmp .gt (.var "ends") (.prim .combine [(.meth (.var "ends") .date [] []), (.var "time_ends")] [])) [
  .assign (.name "ends") (.prim .combine [(.meth (.var "ends") .date [] []), (.var "time_ends")] [])] []

/-- The statement after the loop. -/
def restStmt : Stmt := .ite (.cmp .ne (.var "last_block_begins") (.var "ends")) [
  .ite (.or (.cmp .is (.var "minimal_duration") (.const .none)) (.cmp .ge (.bin .sub (.var "ends") (.var "last_block_begins")) (.var "minimal_duration"))) [
    .mutate none "free_periods" .append [(.tuple [(.var "last_block_begins"), (.var "ends")])]] []] []

theorem begins_step (G : Ctx) (W : Nat) (self atts : Val) (b0 en0 tb te : Int) (md : Option Int) (blk : Val) (b en : Int) (res : List Val)
    (last ds de : Option Val) :
    exec G W beginsStmt ⟨freeEnv self atts b0 en0 tb te md blk b en res last ds de, []⟩
    = (⟨freeEnv self atts b0 en0 tb te md blk (if b < combine (dtDate b) tb then combine (dtDate b) tb else b) en res last ds de, []⟩, .next) := by
  by_cases h : b < combine (dtDate b) tb
  · lang [beginsStmt, freeEnv, h]
  · lang [beginsStmt, freeEnv, h]

theorem ends_step (G : Ctx) (W : Nat) (self atts : Val) (b0 en0 tb te : Int) (md : Option Int) (blk : Val) (b en : Int) (res : List Val)
    (last ds de : Option Val) :
    exec G W endsStmt ⟨freeEnv self atts b0 en0 tb te md blk b en res last ds de, []⟩
    = (⟨freeEnv self atts b0 en0 tb te md blk b (if en > combine (dtDate en) te then combine (dtDate en) te else en) res last ds de, []⟩, .next) := by
  by_cases h : combine (dtDate en) te < en
  · lang [endsStmt, freeEnv, h, gt_iff_lt]
  · lang [endsStmt, freeEnv, h, gt_iff_lt]

theorem rest_step (G : Ctx) (W : Nat) (self atts : Val) (b0 en0 tb te : Int) (md : Option Int) (blk : Val) (b en : Int) (res : List Val)
    (last : Int) (ds de : Option Val) :
    exec G W restStmt ⟨freeEnv self atts b0 en0 tb te md blk b en res (some (.datetime last)) ds de, []⟩
    = (⟨freeEnv self atts b0 en0 tb te md blk b en (res ++ (freeLoop tb en md last []).map dtPair) (some (.datetime last)) ds de, []⟩, .next) := by
  unfold freeLoop longEnough
  by_cases h2 : last = en
  · have h2 := eq_true h2
    lang [restStmt, freeEnv, h2]
    simp
  · cases md with
    | none =>
      lang [restStmt, freeEnv, h2, ofOption_none, dtPair]
      simp [dtPair]
    | some m =>
      by_cases h3 : m ≤ en - last
      · lang [restStmt, freeEnv, h2, ofOption_some, is_delta_none, h3]
        simp [dtPair]
      · lang [restStmt, freeEnv, h2, ofOption_some, is_delta_none, h3]
        simp

theorem free_body : Source.StorageManagerBase_getFreePeriods = ⟨.fn,
  [("self", none), ("attendees", none), ("period", none), ("time_period", none), ("minimal_duration", some .none)],
  ["blocked_periods", "begins", "ends", "time_begins", "time_ends", "free_periods", "last_block_begins", "dtstart", "dtend"],
  [.assign (.name "blocked_periods") (.method (.var "self") "getBlockedPeriods" [(.var "attendees"), (.var "period"), (.var "time_period")] []),
    .assign (.names ["begins", "ends"]) (.var "period"),
    .assign (.names ["time_begins", "time_ends"]) (.var "time_period"),
    .assign (.name "free_periods") (.list []),
    beginsStmt, endsStmt,
    .assign (.name "last_block_begins") (.var "begins"),
    .for (.names ["dtstart", "dtend"]) (.var "blocked_periods") Source.StorageManagerBase_getFreePeriods_loop1 [],
    restStmt,
    .ret (.var "free_periods")]⟩ := rfl

theorem manager_free (W n : Nat) (L : Listing) (hL : L.Faithful) (s : Storage) (atts : List AttId) (b en tb te : Int) (md : Option Int)
    (hr : ∀ a ∈ atts, Ready W s (some { attendees := some [a] }) en) (hW : (en / DAY - b / DAY).toNat + 5 ≤ W) :
    Source.prog.call W (n + 10) "StorageManagerBase.getFreePeriods"
      [ofManager L s, .list (atts.map (ofAttendee L)), ofPeriod (some b) (some en), .tuple [.time tb, .time te], ofOption .delta md] []
    = toM (fun l => .list (l.map dtPair)) (s.getFreePeriods atts b en tb te md) := by
  rw [call_eq (d := Source.StorageManagerBase_getFreePeriods) rfl, free_body]
  have h := manager_blocked W n L hL s atts b en tb te hr hW
  unfold Storage.getFreePeriods
  cases hx : s.getBlockedPeriods atts b en tb te with
  | error f =>
    rw [hx, toM_error] at h
    simp only [ofManager] at h
    lang [ofManager, ctx_method, method_manager_blocked, ctx_call, h, error_bind, toM_error]
  | ok blk =>
    rw [hx, toM_ok] at h
    rw [ok_bind, toM_ok]
    have h1 := begins_step (Source.prog.ctx W (n + 9)) W (ofManager L s) (.list (atts.map (ofAttendee L))) b en tb te md (.list (blk.map dtPair))
      b en [] none none none
    generalize (if b < combine (dtDate b) tb then combine (dtDate b) tb else b) = B at h1
    have h2 := ends_step (Source.prog.ctx W (n + 9)) W (ofManager L s) (.list (atts.map (ofAttendee L))) b en tb te md (.list (blk.map dtPair))
      B en [] none none none
    generalize (if en > combine (dtDate en) te then combine (dtDate en) te else en) = E at h2
    obtain ⟨kept, last', ds', de', h3, h4⟩ := free_loop (Source.prog.ctx W (n + 9)) W (ofManager L s) (.list (atts.map (ofAttendee L))) b en tb te md
      (.list (blk.map dtPair)) B E blk [] B none none
    have h5 := rest_step (Source.prog.ctx W (n + 9)) W (ofManager L s) (.list (atts.map (ofAttendee L))) b en tb te md (.list (blk.map dtPair))
      B E (kept.map dtPair) last' ds' de'
    rw [h4, List.map_append]
    rw [List.nil_append] at h3
    simp only [ofManager, freeEnv] at h h1 h2 h3 h5
    lang [ofManager, ctx_method, method_manager_blocked, ctx_call, h, ofPeriod_elems, h1, h2, h3, h5]

end CalCore.Lang
