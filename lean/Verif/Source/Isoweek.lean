import Verif.Model.Lang
/- Syntax trees of functions of /repo/src/calcore/isoweek.py, written by tools/translate.py: do not edit. -/
namespace CalCore.Lang.Source

/-- `getWeeksInYear`, isoweek.py lines 25-31 -/
def getWeeksInYear : FunDef where
  kind := .fn
  params := [("year", none)]
  locals := ["jan1", "dec31"]
  body := [
    -- 26: jan1 = datetime(year, 1, 1)
    .assign (.name "jan1") (.prim .datetime [(.var "year"), (.const (.int 1)), (.const (.int 1))] []),
    -- 27: dec31 = datetime(year, 12, 31)
    .assign (.name "dec31") (.prim .datetime [(.var "year"), (.const (.int 12)), (.const (.int 31))] []),
    -- 28: if jan1.isoweekday() == 4 or dec31.isoweekday() == 4:
    .ite (.or (.cmp .eq (.meth (.var "jan1") .isoweekday [] []) (.const (.int 4))) (.cmp .eq (.meth (.var "dec31") .isoweekday [] []) (.const (.int 4)))) [
      -- 29: return 53
      .ret (.const (.int 53))] [
      -- 31: return 52
      .ret (.const (.int 52))]]

/-- `weeknr2datetime`, isoweek.py lines 33-57 -/
def weeknr2datetime : FunDef where
  kind := .fn
  params := [("year", none), ("weeknr", none), ("weekday", some .none)]
  locals := ["jan4", "iso_year", "iso_weeknr", "iso_weekday", "week1", "result"]
  body := [
    -- 39: jan4 = datetime(year, 1, 4)
    .assign (.name "jan4") (.prim .datetime [(.var "year"), (.const (.int 1)), (.const (.int 4))] []),
    -- 40: iso_year, iso_weeknr, iso_weekday = jan4.isocalendar()
    .assign (.names ["iso_year", "iso_weeknr", "iso_weekday"]) (.meth (.var "jan4") .isocalendar [] []),
    -- 41: if iso_weeknr == 1:
    .ite (.cmp .eq (.var "iso_weeknr") (.const (.int 1))) [
      -- 43: week1 = jan4
      .assign (.name "week1") (.var "jan4")] [
      -- 47: week1 = jan4 + timedelta(7)
      .assign (.name "week1") (.bin .add (.var "jan4") (.prim .timedelta [(.const (.int 7))] []))],
    -- 50: week1 = week1 - timedelta(week1.weekday())
    .assign (.name "week1") (.bin .sub (.var "week1") (.prim .timedelta [(.meth (.var "week1") .weekday [] [])] [])),
    -- 54: result = week1 + timedelta(7 * (weeknr - 1))
    .assign (.name "result") (.bin .add (.var "week1") (.prim .timedelta [(.bin .mul (.const (.int 7)) (.bin .sub (.var "weeknr") (.const (.int 1))))] [])),
    -- 55: if weekday is not None:
    .ite (.cmp .isNot (.var "weekday") (.const .none)) [
      -- 56: result = result + timedelta(weekday - 1)
      .assign (.name "result") (.bin .add (.var "result") (.prim .timedelta [(.bin .sub (.var "weekday") (.const (.int 1)))] []))] [],
    -- 57: return result
    .ret (.var "result")]

end CalCore.Lang.Source
