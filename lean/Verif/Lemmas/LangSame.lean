import Verif.Spec.Represent
/- A test for equality of values, to run the interpreter on examples. -/
namespace CalCore.Lang
mutual
/-- Equality of values as a test, to compute with. -/
def Val.same : Val → Val → Bool
  | .none, .none => true
  | .bool a, .bool b => a == b
  | .int a, .int b => a == b
  | .str a, .str b => a == b
  | .date a, .date b => a == b
  | .datetime a, .datetime b => a == b
  | .delta a, .delta b => a == b
  | .time a, .time b => a == b
  | .list a, .list b => sameList a b
  | .tuple a, .tuple b => sameList a b
  | .set a, .set b => sameList a b
  | .dict a, .dict b => sameDict a b
  | .obj c a, .obj c' b => c == c' && sameAttrs a b
  | .gen a f, .gen b f' => sameList a b && f == f'
  | _, _ => false
termination_by structural a => a
def sameList : List Val → List Val → Bool
  | [], [] => true
  | a :: l, b :: m => a.same b && sameList l m
  | _, _ => false
termination_by structural a => a
def samePair : Val × Val → Val × Val → Bool
  | (a, a'), (b, b') => a.same b && a'.same b'
termination_by structural a => a
def sameDict : List (Val × Val) → List (Val × Val) → Bool
  | [], [] => true
  | a :: l, b :: m => samePair a b && sameDict l m
  | _, _ => false
termination_by structural a => a
def sameAttr : String × Val → String × Val → Bool
  | (a, a'), (b, b') => a == b && a'.same b'
termination_by structural a => a
def sameAttrs : List (String × Val) → List (String × Val) → Bool
  | [], [] => true
  | a :: l, b :: m => sameAttr a b && sameAttrs l m
  | _, _ => false
termination_by structural a => a
end

mutual
theorem same_eq : ∀ a b : Val, a.same b = true → a = b
  | .none, b, h => by cases b <;> first | rfl | (simp [Val.same] at h)
  | .bool a, b, h => by cases b <;> first | (simp [Val.same] at h; rw [h]) | (simp [Val.same] at h)
  | .int a, b, h => by cases b <;> first | (simp [Val.same] at h; rw [h]) | (simp [Val.same] at h)
  | .str a, b, h => by cases b <;> first | (simp [Val.same] at h; rw [h]) | (simp [Val.same] at h)
  | .date a, b, h => by cases b <;> first | (simp [Val.same] at h; rw [h]) | (simp [Val.same] at h)
  | .datetime a, b, h => by cases b <;> first | (simp [Val.same] at h; rw [h]) | (simp [Val.same] at h)
  | .delta a, b, h => by cases b <;> first | (simp [Val.same] at h; rw [h]) | (simp [Val.same] at h)
  | .time a, b, h => by cases b <;> first | (simp [Val.same] at h; rw [h]) | (simp [Val.same] at h)
  | .list a, b, h => by cases b <;> first | (simp [Val.same] at h; rw [sameList_eq _ _ h]) | (simp [Val.same] at h)
  | .tuple a, b, h => by cases b <;> first | (simp [Val.same] at h; rw [sameList_eq _ _ h]) | (simp [Val.same] at h)
  | .set a, b, h => by cases b <;> first | (simp [Val.same] at h; rw [sameList_eq _ _ h]) | (simp [Val.same] at h)
  | .dict a, b, h => by cases b <;> first | (simp [Val.same] at h; rw [sameDict_eq _ _ h]) | (simp [Val.same] at h)
  | .obj c a, b, h => by cases b <;> first | (simp [Val.same] at h; rw [h.1, sameAttrs_eq _ _ h.2]) | (simp [Val.same] at h)
  | .gen a f, b, h => by cases b <;> first | (simp [Val.same] at h; rw [h.2, sameList_eq _ _ h.1]) | (simp [Val.same] at h)
theorem sameList_eq : ∀ a b : List Val, sameList a b = true → a = b
  | [], b, h => by cases b <;> first | rfl | (simp [sameList] at h)
  | a :: l, b, h => by cases b <;> first | (simp [sameList] at h; rw [same_eq _ _ h.1, sameList_eq _ _ h.2]) | (simp [sameList] at h)
theorem samePair_eq : ∀ a b : Val × Val, samePair a b = true → a = b
  | (a, a'), (b, b'), h => by simp [samePair] at h; rw [same_eq _ _ h.1, same_eq _ _ h.2]
theorem sameDict_eq : ∀ a b : List (Val × Val), sameDict a b = true → a = b
  | [], b, h => by cases b <;> first | rfl | (simp [sameDict] at h)
  | a :: l, b, h => by cases b <;> first | (simp [sameDict] at h; rw [samePair_eq _ _ h.1, sameDict_eq _ _ h.2]) | (simp [sameDict] at h)
theorem sameAttr_eq : ∀ a b : String × Val, sameAttr a b = true → a = b
  | (a, a'), (b, b'), h => by simp [sameAttr] at h; rw [h.1, same_eq _ _ h.2]
theorem sameAttrs_eq : ∀ a b : List (String × Val), sameAttrs a b = true → a = b
  | [], b, h => by cases b <;> first | rfl | (simp [sameAttrs] at h)
  | a :: l, b, h => by cases b <;> first | (simp [sameAttrs] at h; rw [sameAttr_eq _ _ h.1, sameAttrs_eq _ _ h.2]) | (simp [sameAttrs] at h)
end

/-- The same for results. -/
def sameM : M Val → M Val → Bool
  | .ok a, .ok b => a.same b
  | .error a, .error b => a == b
  | _, _ => false

theorem sameM_eq {a b : M Val} (h : sameM a b = true) : a = b := by
  cases a <;> cases b <;> simp [sameM] at h
  · rw [h]
  · rw [same_eq _ _ h]

end CalCore.Lang
