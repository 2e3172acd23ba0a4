import Verif.Model.Values
/-! # Specification: units and their abbreviations -/

namespace Verif

/-- Nanoseconds in one unit of time. -/
def nanosIn : TimeUnit → Int
  | .NANOSECONDS => 1
  | .MICROSECONDS => 1000
  | .MILLISECONDS => 1000000
  | .SECONDS => 1000000000
  | .MINUTES => 60000000000
  | .HOURS => 3600000000000
  | .DAYS => 86400000000000

/-- Bytes in one unit of size. -/
def bytesIn : ByteSizeUnit → Int
  | .BYTES => 1
  | .KB => 1024
  | .MB => 1048576
  | .GB => 1073741824
  | .TB => 1099511627776
  | .PB => 1125899906842624

/-- The abbreviation of a unit of time. -/
def timeSuffix : TimeUnit → String
  | .NANOSECONDS => "nanos"
  | .MICROSECONDS => "micros"
  | .MILLISECONDS => "ms"
  | .SECONDS => "s"
  | .MINUTES => "m"
  | .HOURS => "h"
  | .DAYS => "d"

/-- The abbreviation of a unit of size. -/
def byteSuffix : ByteSizeUnit → String
  | .BYTES => "b"
  | .KB => "kb"
  | .MB => "mb"
  | .GB => "gb"
  | .TB => "tb"
  | .PB => "pb"

end Verif
