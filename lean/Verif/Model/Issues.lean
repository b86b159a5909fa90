/-
Model of the issue log kept by the reader.
Paths are relative to /repo/crates/wolfram-parser/src.
-/
namespace CodeParser

/-- `Severity`, issue.rs:52-59. -/
inductive Severity where
  | formatting | remark | warning | error | fatal
deriving DecidableEq, Repr

/-- `Issue`, issue.rs:12-23.  Simplification: the fields compared by
`PartialEq for Issue` (issue.rs:251-262) other than the severity (`make_sym`,
`tag`, `msg`, `src`, `val`, `actions`, `additional_descriptions`) are one field
`key` of an arbitrary type with decidable equality (`val` is an `f64`, but every
value the code constructs is a numeric literal, so NaN does not arise).
`extra` is `additional_sources`, which `PartialEq` ignores. -/
structure Issue (K E : Type) where
  key : K
  sev : Severity
  extra : E

/-- `PartialEq for Issue`, issue.rs:251-262. -/
def Issue.eq [DecidableEq K] (a b : Issue K E) : Bool := a.key == b.key && a.sev == b.sev

/-- `Reader::fatal_issues` and `Reader::non_fatal_issues`, read.rs:47-48. -/
structure IssueLog (K E : Type) where
  fatal : List (Issue K E)
  nonFatal : List (Issue K E)

/-- Both vectors are empty in `Reader::new`, read.rs:98-99. -/
def IssueLog.empty : IssueLog K E := ⟨[], []⟩

/-- `Reader::addIssue`, read.rs:247-278. -/
def IssueLog.add [DecidableEq K] (log : IssueLog K E) (issue : Issue K E) : IssueLog K E :=
  if issue.sev = .fatal then
    if log.fatal.length ≥ 10 then log
    else if log.fatal.any (fun o => o.eq issue) then log
    else { log with fatal := log.fatal ++ [issue] }
  else
    if log.nonFatal.any (fun o => o.eq issue) then log
    else { log with nonFatal := log.nonFatal ++ [issue] }

end CodeParser
