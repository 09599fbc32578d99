import Verif.Source.Prog
/- What it means that the source text computes something. -/
namespace CalCore.Lang
variable [Source.Globals]

/-- Calling the function `f` of the source text gives `r`, if loops may run long enough and calls may be nested deeply
enough. -/
def Gives (f : String) (args : List Val) (r : M Val) : Prop :=
  ∃ N, ∀ W, N ≤ W → ∀ n, N ≤ n → Source.prog.call W n f args [] = r

/-- The same for the method `m` of the object `o`. -/
def Answers (o : Val) (m : String) (args : List Val) (r : M Val) : Prop :=
  ∃ N, ∀ W, N ≤ W → ∀ n, N ≤ n → Source.prog.invoke W n o m args [] = r

/-- The same for the creation of an object. -/
def Makes (cls : String) (args : List Val) (r : M Val) : Prop :=
  ∃ N, ∀ W, N ≤ W → ∀ n, N ≤ n → Source.prog.new W n cls args [] = r

/-- The call does not end, however long loops may run. -/
def Loops (o : Val) (m : String) (args : List Val) : Prop :=
  ∃ N, ∀ W, N ≤ W → ∀ n, N ≤ n → ∃ l, Source.prog.invoke W n o m args [] = .ok (.gen l (some .timeout))

end CalCore.Lang
