import Verif.Values

/-! # Specification: the names of enumerated values (RFC 5545, sections 3.8.1.11, 3.8.2.7, 3.3.10 and 3.8.1.3) -/

namespace Ikal.Spec

/-- The names of the statuses. -/
def statusName : Status → Str
  | .tentative => c!"TENTATIVE"
  | .confirmed => c!"CONFIRMED"
  | .cancelled => c!"CANCELLED"
  | .needsAction => c!"NEEDS-ACTION"
  | .completed => c!"COMPLETED"
  | .inProcess => c!"IN-PROCESS"
  | .draft => c!"DRAFT"
  | .final => c!"FINAL"

/-- The names of the transparencies. -/
def transparencyName : TimeTransparency → Str
  | .opaque => c!"OPAQUE"
  | .transparent => c!"TRANSPARENT"

/-- The names of the frequencies. -/
def freqName : Freq → Str
  | .secondly => c!"SECONDLY"
  | .minutely => c!"MINUTELY"
  | .hourly => c!"HOURLY"
  | .daily => c!"DAILY"
  | .weekly => c!"WEEKLY"
  | .monthly => c!"MONTHLY"
  | .yearly => c!"YEARLY"

/-- The names of the days of the week. -/
def weekdayName : Weekday → Str
  | .sunday => c!"SU"
  | .monday => c!"MO"
  | .tuesday => c!"TU"
  | .wednesday => c!"WE"
  | .thursday => c!"TH"
  | .friday => c!"FR"
  | .saturday => c!"SA"

section
variable [Platform]

/-- The names of the classifications: a custom one is capitalised. -/
def className : Class → Str
  | .pub => c!"PUBLIC"
  | .priv => c!"PRIVATE"
  | .confidential => c!"CONFIDENTIAL"
  | .custom s => upperStr s

end

end Ikal.Spec
