import Verif.Model.Custom
import Verif.Model.Systemd
import Verif.Model.Gnu
/-!
# Model of the `Default` implementations and the functions `builder`
-/
namespace Fundu

/-- time.rs:107-111 `impl Default for TimeUnit`, with time.rs:40 `DEFAULT_TIME_UNIT` -/
def TimeUnit.default : TimeUnit := .second

/-- config.rs:237-241 `impl Default for Config` and config.rs:269-286 `new` -/
def Config.default : Config := {}

/-- config.rs:304-306 `Config::builder` -/
def Config.builder : ConfigBuilder := ConfigBuilder.new

/-- parse.rs:98-102 `Parser::new` and parse.rs:237-241 `default`. A `Parser` consists of its configuration, which is given to the
function `parse` of the model. -/
def parserNew : Config := Config.default

/-- parse.rs:105-107 `Parser::with_config` -/
def parserWithConfig (config : Config) : Config := config

/-- standard/time_units.rs:34-38 `impl Default for TimeUnits` -/
def TimeUnits.default : TimeUnits := TimeUnits.withDefaultTimeUnits

/-- standard/parser.rs:663-667 `impl Default for DurationParser` -/
def DurationParser.default : DurationParser := DurationParser.new

/-- standard/builder.rs:73-78 `impl Default for DurationParserBuilder` -/
def DurationParserBuilder.default : DurationParserBuilder := DurationParserBuilder.new

/-- standard/parser.rs:205-207 `DurationParser::builder` -/
def DurationParser.builder : DurationParserBuilder := DurationParserBuilder.new

/-- custom/parser.rs:855-859 `impl Default for CustomDurationParser` -/
def CustomDurationParser.default : CustomDurationParser := CustomDurationParser.new

/-- custom/builder.rs:50-55 `impl Default for CustomDurationParserBuilder` -/
def CustomDurationParserBuilder.default : CustomDurationParserBuilder := CustomDurationParserBuilder.new

/-- custom/parser.rs:154-156 `CustomDurationParser::builder` -/
def CustomDurationParser.builder : CustomDurationParserBuilder := CustomDurationParserBuilder.new

/-- systemd/lib.rs:583-587 `impl Default for TimeSpanParser` -/
def Systemd.TimeSpanParser.default : Systemd.TimeSpanParser := Systemd.TimeSpanParser.new

/-- gnu/lib.rs:702-706 `impl Default for RelativeTimeParser` -/
def Gnu.RelativeTimeParser.default : Gnu.RelativeTimeParser := Gnu.RelativeTimeParser.new

end Fundu
