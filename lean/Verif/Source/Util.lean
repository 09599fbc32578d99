import Verif.Model.Lang
/- Syntax trees of functions of /repo/src/calcore/util.py, written by tools/translate.py: do not edit. -/
namespace CalCore.Lang.Source

/-- The loop of `removeOverlaps` at line 35. -/
def removeOverlaps_loop1 : List Stmt := [
  -- 36: start, end = sequence[i]
  .assign (.names ["start", "end"]) (.index (.var "sequence") (.var "i")),
  -- 37: if start <= last_end:
  .ite (.cmp .le (.var "start") (.var "last_end")) [
    -- 38: if end <= last_end:
    .ite (.cmp .le (.var "end") (.var "last_end")) [
      -- 40: continue
      .continue] [],
    -- 42: last_end = end
    .assign (.name "last_end") (.var "end"),
    -- 43: continue
    .continue] [],
  -- 45: result.append((last_start, last_end))
  .mutate none "result" .append [(.tuple [(.var "last_start"), (.var "last_end")])],
  -- 46: last_start = start
  .assign (.name "last_start") (.var "start"),
  -- 47: last_end = end
  .assign (.name "last_end") (.var "end")]

/-- `removeOverlaps`, util.py lines 22-50 -/
def removeOverlaps : FunDef where
  kind := .fn
  params := [("sequence", none)]
  locals := ["last_start", "last_end", "result", "i", "start", "end"]
  body := [
    -- 29: if not sequence:
    .ite (.not (.var "sequence")) [
      -- 30: return sequence
      .ret (.var "sequence")] [],
    -- 31: sequence.sort()
    .mutate none "sequence" .sort [],
    -- 33: last_start, last_end = sequence[0]
    .assign (.names ["last_start", "last_end"]) (.index (.var "sequence") (.const (.int 0))),
    -- 34: result = []
    .assign (.name "result") (.list []),
    -- 35: for i in range(1, len(sequence)):
    .for (.name "i") (.prim .range [(.const (.int 1)), (.prim .len [(.var "sequence")] [])] []) removeOverlaps_loop1 [],
    -- 49: result.append((last_start, last_end))
    .mutate none "result" .append [(.tuple [(.var "last_start"), (.var "last_end")])],
    -- 50: return result
    .ret (.var "result")]

end CalCore.Lang.Source
