{"id": "C01", "title": "Version names and constants are inverse", "statement": "For every supported version constant v, stringToVersion(versionToString(v)) == v with and without skipDevel, in any letter case; distinct constants have distinct names; versionToString raises KickstartVersionError for every integer that is not a supported constant.", "quantifier": "all integers, all strings that are case variants of a version name", "why_tests_cant": "the rejection half ranges over all integers and the case half over all case variants", "anchors": ["pykickstart/version.py:versionMap,stringToVersion,versionToString"]}
{"id": "C02", "title": "Language accepted by stringToVersion", "statement": "stringToVersion(s) succeeds exactly when s is, ignoring case, a short version name, or 'fedora<anything> N' for a Fedora release N in the map, or 'red hat enterprise linux<anything> N<dots and digits>' for a RHEL release N in the map; every other string raises KickstartVersionError, never another exception.", "quantifier": "all strings", "why_tests_cant": "the set of rejected strings is infinite; tests sample a handful", "anchors": ["pykickstart/version.py:stringToVersion"]}
{"id": "C03", "title": "versionFromFile reads the first #version= line only", "statement": "versionFromFile(f) is DEVEL when no line of the file starts with '#version=', otherwise it is stringToVersion of the rest (right-stripped) of the first such line, whatever precedes or follows it.", "quantifier": "all file contents", "why_tests_cant": "must hold for arbitrary surrounding text", "anchors": ["pykickstart/version.py:versionFromFile"]}
{"id": "C04", "title": "makeVersion returns the handler that was asked for", "statement": "For every supported integer constant and every short name other than DEVEL, makeVersion returns a handler whose version is that constant; a value accepted by stringToVersion is accepted by makeVersion.", "quantifier": "all version constants and all strings accepted by stringToVersion", "why_tests_cant": "the second half ranges over an infinite language; it is false for 'DEVEL' and for long names such as 'Fedora 34'", "anchors": ["pykickstart/version.py:returnClassForVersion,makeVersion"]}
{"id": "C05", "title": "commaSplit yields clean elements and inverts joining", "statement": "commaSplit(s) contains no empty element, no element with surrounding whitespace and no element with a comma; joining any list of such elements with commas (and optional blanks) and splitting gives the list back.", "quantifier": "all strings, all lists of strings", "why_tests_cant": "ranges over all strings and list lengths", "anchors": ["pykickstart/options.py:commaSplit"]}
{"id": "C06", "title": "ksboolean accepts exactly eight words in any case", "statement": "ksboolean(v) is True exactly for case variants of on/yes/true/1, False exactly for case variants of off/no/false/0 and raises ArgumentTypeError for every other value; no value is both.", "quantifier": "all strings", "why_tests_cant": "rejection ranges over all strings", "anchors": ["pykickstart/options.py:ksboolean"]}
{"id": "C07", "title": "Mount point normalisation is idempotent and canonical", "statement": "mountpoint(p) leaves p alone unless it starts with '/'; otherwise the result is an absolute path with no empty, '.' or '..' component, no trailing slash (unless it is the root) and mountpoint is idempotent.", "quantifier": "all strings", "why_tests_cant": "path normalisation must hold for every component sequence", "anchors": ["pykickstart/options.py:mountpoint"]}
{"id": "C08", "title": "Quoting an argument list survives the line tokenizer", "statement": "For every list of arguments, writing them on a line in shell-quoted form and tokenizing that line the way the parser does gives exactly the same list back; an unquoted word containing no blank, quote, backslash or '#' is one token unchanged.", "quantifier": "all lists of strings", "why_tests_cant": "round trip over all strings", "anchors": ["pykickstart/parser.py:KickstartParser._stateMachine (shlex.split)"]}
{"id": "C09", "title": "A trailing comment never reaches a command", "statement": "Appending ' # anything' to a command line that has no open quote does not change the argument list the command receives.", "quantifier": "all command lines, all comment texts", "why_tests_cant": "ranges over all lines and comments", "anchors": ["pykickstart/parser.py:KickstartParser._stateMachine (shlex.split comments=True)"]}
{"id": "C10", "title": "Option errors are KickstartParseErrors with the right line", "statement": "Parsing a command's arguments either succeeds or raises KickstartParseError carrying exactly the line number given to parse_args/parse_known_args; it never exits the process and never raises anything else.", "quantifier": "all option tables, all argument lists, all line numbers", "why_tests_cant": "ranges over all tables and argument lists", "anchors": ["pykickstart/options.py:KSOptionParser.error,exit,parse_args,parse_known_args"]}
{"id": "C11", "title": "Repeated options: last store wins, append and extend accumulate in order", "statement": "When a value option is repeated the last value is kept; append options collect all values in order; ExtendAction options concatenate all lists in order.", "quantifier": "all sequences of occurrences", "why_tests_cant": "any number of repetitions", "anchors": ["pykickstart/options.py:ExtendAction,KSOptionParser"]}
{"id": "C12", "title": "Option order does not matter for options with different destinations", "statement": "Permuting the '--option=value' and flag arguments of a line that write to different destinations does not change the parse result.", "quantifier": "all permutations of all such argument lists", "why_tests_cant": "factorially many orders", "anchors": ["pykickstart/options.py:KSOptionParser"]}
{"id": "C13", "title": "Exact option names win, unique abbreviations resolve, ambiguous or unknown ones are rejected", "statement": "An argument that is exactly a registered option always selects that option even if it is a prefix of another; an unambiguous prefix selects the unique option it abbreviates; an ambiguous prefix, and an unknown dashed argument without blanks, raise KickstartParseError in parse_args; an unknown dashed argument containing a blank is taken as a positional word.", "quantifier": "all option tables and arguments", "why_tests_cant": "ranges over all tables", "anchors": ["pykickstart/options.py:KSOptionParser._parse_optional"]}
{"id": "C14", "title": "Required options are enforced", "statement": "If a required option is not present in the arguments parsing raises KickstartParseError; if parsing succeeds every required option was given.", "quantifier": "all option tables and argument lists", "why_tests_cant": "ranges over all argument lists", "anchors": ["pykickstart/options.py:KSOptionParser"]}
{"id": "C15", "title": "Removed options are rejected", "statement": "After remove_argument(o) a line using option o (without blanks in its value) is rejected unless o is an abbreviation of an option that still exists.", "quantifier": "all option tables and removed options", "why_tests_cant": "false in general when the removed option has an alias: the alias string is still accepted", "anchors": ["pykickstart/options.py:KSOptionParser.remove_argument"]}
{"id": "C16", "title": "Unset options never overwrite attributes", "statement": "set_to_self/set_to_obj changes exactly the attributes whose parsed value is not None and leaves every other attribute of the object untouched.", "quantifier": "all namespaces and objects", "why_tests_cant": "ranges over all attribute sets", "anchors": ["pykickstart/base.py:KickstartCommand.set_to_self,set_to_obj"]}
{"id": "C17", "title": "The last mention of a package decides", "statement": "After feeding any sequence of %packages lines one by one, a package is in packageList iff its last mention was without '-', in excludedList iff its last mention was with '-', and never in both.", "quantifier": "all line sequences", "why_tests_cant": "depends on the whole history of lines", "anchors": ["pykickstart/parser.py:Packages.add", "pykickstart/sections.py:PackageSection.handleLine"]}
{"id": "C18", "title": "Package lists are sorted and duplicate free", "statement": "After any sequence of add calls (each with any batch of lines) packageList and excludedList are sorted in code point order and contain no duplicates.", "quantifier": "all histories of add calls", "why_tests_cant": "invariant over unbounded histories", "anchors": ["pykickstart/parser.py:Packages.add"]}
{"id": "C19", "title": "At most one group entry per name; the first mode wins; exclusion removes earlier entries", "statement": "groupList never holds two groups of one name; re-adding a group keeps the include mode of the earlier entry; '-@g' removes every earlier entry of g and records g in excludedGroupList in order.", "quantifier": "all histories of add calls", "why_tests_cant": "invariant over unbounded histories", "anchors": ["pykickstart/parser.py:Packages.add,_processGroup,Group"]}
{"id": "C20", "title": "The environment is the last one named and not cancelled", "statement": "After any sequence of lines, environment is the name of the last '@^name' line unless a later '-@^name' line with the same name cancelled it; an exclusion of a different name leaves it in place.", "quantifier": "all line sequences", "why_tests_cant": "depends on the whole history", "anchors": ["pykickstart/parser.py:Packages.add"]}
{"id": "C21", "title": "A batch that both adds and excludes one package", "statement": "Packages.add of one batch containing both 'p' and '-p' puts p in both lists, whatever their order in the batch, while the same lines fed one at a time never do.", "quantifier": "all batches", "why_tests_cant": "order independence over all batches", "anchors": ["pykickstart/parser.py:Packages.add"]}
{"id": "C22", "title": "Written %packages sections parse back to the same selection", "statement": "Writing a package selection and parsing the text back gives the same groups with modes, packages, exclusions, environment and header options, for every version whose syntax has the options used.", "quantifier": "all package selections and versions", "why_tests_cant": "round trip over all selections", "anchors": ["pykickstart/parser.py:Packages.__str__,_processPackagesContent", "pykickstart/sections.py:PackageSection"]}
{"id": "C23", "title": "Serializing packages does not change the selection and is idempotent", "statement": "str(packages) may reorder the lists but never adds, drops or changes an entry, and calling it twice gives the same text; it is empty exactly when nothing was selected and no %packages was seen.", "quantifier": "all package selections", "why_tests_cant": "ranges over all selections", "anchors": ["pykickstart/parser.py:Packages.__str__"]}
{"id": "C24", "title": "Script bodies are kept verbatim", "statement": "For a script section closed with %end, the resulting Script's text is exactly the concatenation of the section's lines, including blank lines, comments, indentation and '%' lines that are not section tags, %end or %include.", "quantifier": "all script bodies", "why_tests_cant": "ranges over all texts", "anchors": ["pykickstart/parser.py:KickstartParser._readSection", "pykickstart/sections.py:ScriptSection"]}
{"id": "C25", "title": "Script attributes come from the section's own header", "statement": "A Script's type is that of its section, interpreter/log/errorOnFail/inChroot come from that header alone (defaults otherwise), and lineno is the header's line; nothing leaks from an earlier non-blank script.", "quantifier": "all sequences of sections", "why_tests_cant": "isolation over all histories", "anchors": ["pykickstart/sections.py:ScriptSection.handleHeader,finalize,_resetScript"]}
{"id": "C26", "title": "Written scripts parse back to the same script", "statement": "str(script) for a syntax with %end, parsed again, yields a script with the same type, body, interpreter, log file, errorOnFail and chroot setting, provided the header values contain no blank, quote, backslash or '#'.", "quantifier": "all scripts", "why_tests_cant": "round trip over all bodies and options", "anchors": ["pykickstart/parser.py:Script.__str__", "pykickstart/sections.py:ScriptSection"]}
{"id": "C27", "title": "Blank scripts are dropped but their lines leak into the next script of that kind", "statement": "A script section whose lines are all blank produces no Script; its blank lines are prepended to the body of the next script of the same kind read by the same parser.", "quantifier": "all blank bodies and following scripts", "why_tests_cant": "history dependence", "anchors": ["pykickstart/sections.py:ScriptSection.finalize"]}
{"id": "C28", "title": "Each command line is dispatched exactly once, in order, with its tokens and line number", "statement": "Reading a file that has only commands, blanks and comments calls the command dispatcher once per command line, in file order, with the tokens of that line and its 1-based physical line number; blank and comment lines dispatch nothing.", "quantifier": "all files of commands, all handlers", "why_tests_cant": "ranges over all files", "anchors": ["pykickstart/parser.py:KickstartParser._stateMachine,handleCommand,readKickstartFromString"]}
{"id": "C29", "title": "Splitting into lines loses nothing", "statement": "The lines processed by the parser concatenate to exactly the input text, each non-final line ends with one line boundary and contains no other.", "quantifier": "all strings", "why_tests_cant": "ranges over all strings", "anchors": ["pykickstart/parser.py:readKickstartFromString,preprocessFromStringToString"]}
{"id": "C30", "title": "Tolerant mode continues and counts errors", "statement": "With errorsAreFatal=False a failing command does not stop processing: later commands are still dispatched with the right line numbers, and errorsCount grows by exactly the number of failing commands.", "quantifier": "all files of commands, all handlers", "why_tests_cant": "ranges over all error patterns", "anchors": ["pykickstart/parser.py:KickstartParser._tryFunc"]}
{"id": "C31", "title": "Fatal mode stops at the first error", "statement": "With errorsAreFatal=True the first failing command's exception is the one raised, errorsCount grows by one, everything before it took effect and nothing after it did.", "quantifier": "all files of commands, all handlers", "why_tests_cant": "ranges over all error positions", "anchors": ["pykickstart/parser.py:KickstartParser._tryFunc"]}
{"id": "C32", "title": "Sections must be closed from F8 on and end at end of file before F8", "statement": "For version >= F8 a top-level section that reaches end of file or another section header without %end raises KickstartParseError; for earlier versions the section is finalized with the lines read so far.", "quantifier": "all section bodies, all versions", "why_tests_cant": "ranges over all bodies and versions", "anchors": ["pykickstart/parser.py:KickstartParser._readSection"]}
{"id": "C33", "title": "Line numbers stay correct after sections", "statement": "A command after any number of sections is dispatched with its physical line number.", "quantifier": "all files", "why_tests_cant": "accumulates over arbitrary prefixes", "anchors": ["pykickstart/parser.py:KickstartParser._readSection,_stateMachine"]}
{"id": "C34", "title": "%include of a command file is the same as pasting it", "statement": "Reading a file in which '%include f' appears has the same effect on the handler as reading the text with f's contents pasted in place, for included files made of commands, apart from line numbers.", "quantifier": "all files, all included contents, any nesting", "why_tests_cant": "ranges over all files and nestings", "anchors": ["pykickstart/parser.py:KickstartParser._handleInclude,readKickstart"]}
{"id": "C35", "title": "followIncludes=False ignores includes completely", "statement": "With followIncludes=False the result does not depend on the file system at all and %include lines have no effect.", "quantifier": "all files and file systems", "why_tests_cant": "ranges over all file systems", "anchors": ["pykickstart/parser.py:KickstartParser._handleInclude"]}
{"id": "C36", "title": "Missing includes are fatal or skipped as configured", "statement": "With missingIncludeIsFatal=True an unreadable include raises KickstartError; with False it is skipped, the include depth is restored and reading continues after the %include line.", "quantifier": "all files and file systems", "why_tests_cant": "ranges over all file systems", "anchors": ["pykickstart/parser.py:KickstartParser._handleInclude"]}
{"id": "C37", "title": "Include path resolution", "statement": "An include path that exists as given is used as given; otherwise, if it exists relative to the directory of the including file, that file is used.", "quantifier": "all paths and file systems", "why_tests_cant": "ranges over all paths", "anchors": ["pykickstart/parser.py:KickstartParser.readKickstart"]}
{"id": "C38", "title": "Cyclic includes never succeed", "statement": "A file that includes itself (through any path of command lines) can not be read successfully whatever the recursion limit is.", "quantifier": "all recursion limits", "why_tests_cant": "ranges over all limits", "anchors": ["pykickstart/parser.py:KickstartParser.readKickstart"]}
{"id": "C39", "title": "A new read starts from a clean state machine", "statement": "readKickstart and readKickstartFromString with the default reset start in the command state at include depth 0, whatever happened in earlier reads including exceptions.", "quantifier": "all histories of reads", "why_tests_cant": "history independence", "anchors": ["pykickstart/parser.py:KickstartParser._reset"]}
{"id": "C40", "title": "Unknown sections: error or preserved verbatim", "statement": "An unregistered section raises KickstartParseError with its line number when unknownSectionIsFatal, and otherwise is accepted with a warning, its lines have no effect on commands, packages or scripts, and it is kept for output.", "quantifier": "all section names and bodies", "why_tests_cant": "ranges over all sections", "anchors": ["pykickstart/parser.py:KickstartParser._stateMachine", "pykickstart/sections.py:NullSection"]}
{"id": "C41", "title": "Unknown sections survive writing and re-reading", "statement": "Writing a handler and reading the text back preserves the unknown sections.", "quantifier": "all lists of unknown sections", "why_tests_cant": "false: blank lines are inserted between body lines and two sections are run together on one line", "anchors": ["pykickstart/sections.py:NullSection.finalize", "pykickstart/base.py:BaseHandler.__str__"]}
{"id": "C42", "title": "Only kickstart errors escape from reading a file", "statement": "Reading a kickstart file either succeeds or raises a KickstartError.", "quantifier": "all files", "why_tests_cant": "false: an unbalanced quote raises ValueError, a line '\"\"' and a package line '-' raise IndexError", "anchors": ["pykickstart/parser.py:KickstartParser._stateMachine,Packages.add"]}
{"id": "C43", "title": "Preprocessing replaces exactly the %ksappend lines", "statement": "The preprocessed text is the input with each %ksappend line replaced by the contents of the file or URL it names, all other lines unchanged and in order; with no such line it is the input; appended text is not expanded again.", "quantifier": "all texts and file systems", "why_tests_cant": "ranges over all texts", "anchors": ["pykickstart/parser.py:_preprocessStateMachine,preprocessFromStringToString,preprocessKickstartToString"]}
{"id": "C44", "title": "Preprocessing errors name the line", "statement": "A %ksappend line with no argument raises KickstartParseError, an unreadable one KickstartError, with the 1-based line number of the first such line.", "quantifier": "all texts", "why_tests_cant": "ranges over all texts", "anchors": ["pykickstart/parser.py:_preprocessStateMachine"]}
{"id": "C45", "title": "Command names of one class share one object", "statement": "After building a handler from any command map, two names are served by the same object exactly when their classes have the same name, and every name in the map is registered.", "quantifier": "all command maps in all orders", "why_tests_cant": "ranges over all maps", "anchors": ["pykickstart/base.py:KickstartHandler.registerCommand"]}
{"id": "C46", "title": "Commands are written once each, ordered by priority then class name", "statement": "str(handler) concatenates the text of every command object with a priority exactly once, in increasing priority and, within a priority, in increasing class name, independent of the order of registration.", "quantifier": "all command maps and orders", "why_tests_cant": "order independence over all permutations", "anchors": ["pykickstart/base.py:KickstartHandler.__str__,_insertSorted,_setCommand"]}
{"id": "C47", "title": "resetCommand gives a fresh object under that name", "statement": "resetCommand(n) raises KeyError for unknown n; otherwise n is served by a fresh object of the same class, output uses the fresh object and every name of other classes is untouched.", "quantifier": "all handlers and names", "why_tests_cant": "ranges over all registries; it is false that aliases follow the reset", "anchors": ["pykickstart/base.py:KickstartHandler.resetCommand"]}
{"id": "C48", "title": "Dispatch: unknown, masked and known commands", "statement": "The dispatcher raises KickstartParseError with the line number for an unknown name, does nothing for a masked one and otherwise marks the command seen, records name/line/line number and appends at most one data object, only when parse returned one.", "quantifier": "all handlers, commands and arguments", "why_tests_cant": "ranges over all command implementations", "anchors": ["pykickstart/base.py:KickstartHandler.dispatcher"]}
{"id": "C49", "title": "maskAllExcept disables every command not listed", "statement": "After maskAllExcept(lst) dispatching a registered command not in lst has no effect and never raises; listed commands still work; str(handler) writes no command any more, listed or not.", "quantifier": "all handlers and lists", "why_tests_cant": "ranges over all registries", "anchors": ["pykickstart/base.py:BaseHandler.maskAllExcept"]}
{"id": "C50", "title": "commandUpdates override defaults only for the names given", "statement": "A handler built with commandUpdates uses the update class for the names given (if no other name already has a class of that name) and the default class for every other name, and the default map is not modified.", "quantifier": "all maps and updates", "why_tests_cant": "ranges over all maps", "anchors": ["pykickstart/base.py:BaseHandler._registerCommands"]}
{"id": "C51", "title": "Calling an object sets only known attributes", "statement": "obj(**kw) sets exactly the given attributes the object already has and that are not removed, ignores the rest and marks commands as seen.", "quantifier": "all objects and keyword sets", "why_tests_cant": "ranges over all keyword sets", "anchors": ["pykickstart/base.py:KickstartCommand.__call__,BaseData.__call__"]}
{"id": "C52", "title": "Layout of the written file", "statement": "str(handler) is the header comments followed by commands, scripts in order, unknown sections and the packages section, in that order.", "quantifier": "all handler states", "why_tests_cant": "ranges over all states", "anchors": ["pykickstart/base.py:BaseHandler.__str__"]}
{"id": "C53", "title": "Error messages carry line and text", "statement": "A KickstartError with a line number formats a message containing the line number and the text; without one it is the bare text; the old tuple calling convention gives the same result.", "quantifier": "all messages and line numbers", "why_tests_cant": "ranges over all messages", "anchors": ["pykickstart/errors.py:KickstartError,_format_error_message,formatErrorMsg"]}
{"id": "C54", "title": "A written file read back gives the same configuration", "statement": "Reading str(handler) with a new parser restores the platform, the scripts in order and the package selection, and hands exactly the lines the commands wrote to the commands, in order.", "quantifier": "all handlers, scripts, selections and platforms that can be written (see C22, C26, C41) and all commands", "why_tests_cant": "ranges over all configurations", "anchors": ["pykickstart/base.py:BaseHandler.__str__", "pykickstart/parser.py:KickstartParser.readKickstartFromString"]}
{"id": "C55", "title": "A command line fails only with KickstartParseError for that line", "statement": "Dispatching a line to the handler of any version, after any lines, resets and maskings before it, raises nothing but KickstartParseError carrying that line's number, with exactly these exceptions: raid before F19 (ValueError for a device that is no number), method before F34 (TypeError), realm (ValueError from splitting the raw line again), multipath before F24 (AttributeError), mount with a word '--' (IndexError) and nvdimm (KickstartParseError without a line number); each of the exceptions does happen.", "quantifier": "all versions, all histories of the handler, all commands, all argument lists and lines", "why_tests_cant": "ranges over all arguments of all commands of all versions and over all histories", "anchors": ["pykickstart/commands", "pykickstart/handlers", "pykickstart/base.py:KickstartHandler.dispatcher"]}
{"id": "C56", "title": "Storage commands that exclude each other are never both accepted", "statement": "Once a line named autopart (RHEL6, F20 and later), every later line naming part, partition, raid, volgroup or logvol raises, and the other way round; the same for autopart and reqpart (RHEL7, F23 and later) and for mount and all of these (F27 and later, RHEL8). This holds whatever the arguments are, whatever lines were read before or in between, and even if the first line raised itself, so no sequence of accepted lines contains two such commands. The exception is a KickstartParseError with the number of the line. Between F16 and F19 the check goes one way only, and after resetCommand of one alias of a command it can be missed.", "quantifier": "all versions, all pairs of commands that exclude each other, all histories of lines, all arguments", "why_tests_cant": "ranges over all sequences of lines and all arguments in all versions", "anchors": ["pykickstart/commands/autopart.py", "pykickstart/commands/partition.py", "pykickstart/commands/raid.py", "pykickstart/commands/volgroup.py", "pykickstart/commands/logvol.py", "pykickstart/commands/reqpart.py", "pykickstart/commands/mount.py"]}
{"id": "C57", "title": "The order of unrelated command lines does not matter", "statement": "Two lines for different commands (part and partition, auth and authconfig, text, graphical and cmdline, halt, poweroff, reboot and shutdown, install and upgrade count as the same command) that are not two storage commands one of which is autopart or mount can be exchanged: in every version and after every history the handler is the same in the end and each line raises the same exception, or none, in both orders. So reordering a file by such exchanges does not change what it configures.", "quantifier": "all versions, all histories of the handler, all pairs of unrelated commands, all arguments", "why_tests_cant": "ranges over all pairs of lines and all histories", "anchors": ["pykickstart/commands", "pykickstart/handlers", "pykickstart/base.py:KickstartHandler.dispatcher"]}
{"id": "C58", "title": "Data lists hold one object for each accepted line, in order", "statement": "In every version, after any lines, the data list of a command (part, raid, logvol, network, repo, user, ...) holds exactly one object for each accepted line of that command (under any of its names), in the order of the lines, each carrying the number of its line. A refused line leaves the list as it was, and a line never touches the list of another command. multipath (up to F23) is the exception: its objects carry the line number 0 and a later line changes earlier objects.", "quantifier": "all versions, all sequences of lines, all arguments, all commands with data lists", "why_tests_cant": "ranges over all sequences of lines and all arguments in all versions", "anchors": ["pykickstart/commands", "pykickstart/handlers", "pykickstart/base.py:KickstartHandler.dispatcher", "pykickstart/commands/multipath.py"]}
{"id": "C59", "title": "Deprecated commands only warn, removed commands are refused", "statement": "In every version a line for a deprecated command is accepted whatever its arguments, gives a deprecation warning and changes neither the text of the handler nor any data list; leaving all such lines out of a file changes neither the text of the handler nor whether any other line is accepted. A line for a removed command is refused whatever its arguments, and changes nothing. From one Fedora version to the next a deprecated command stays deprecated or is removed, and a removed one stays removed.", "quantifier": "all versions, all histories, all deprecated and removed commands, all arguments", "why_tests_cant": "ranges over all sequences of lines and all arguments in all versions", "anchors": ["pykickstart/base.py:DeprecatedCommand,RemovedCommand", "pykickstart/commands", "pykickstart/handlers"]}
{"id": "C60", "title": "Data objects satisfy the rules of their commands", "statement": "In every version, after any lines, the objects in the data lists satisfy the documented rules of their commands: a thin logical volume names its pool, sizes for a pool's metadata are given for pools only, a volume that is not formatted exists already, percentages lie between 0 and 100; a partition that is resized exists and has a size, a tmpfs does not grow; a new RAID array or volume group has members and an existing one has none; a mount point is absolute or none; a Btrfs volume has devices; a repository has at most one address (before F15 exactly one); a time source is exactly one of server, pool and disabled; a driver disk has exactly one source; no two snapshots have the same name. (The full list of rules with the versions they hold in is the specification in RuleSpec.)", "quantifier": "all versions, all sequences of lines, resets and maskings, all arguments", "why_tests_cant": "ranges over all sequences of lines and all arguments in all versions", "anchors": ["pykickstart/commands/logvol.py", "pykickstart/commands/partition.py", "pykickstart/commands/raid.py", "pykickstart/commands/volgroup.py", "pykickstart/commands/mount.py", "pykickstart/commands/nvdimm.py", "pykickstart/commands/btrfs.py", "pykickstart/commands/snapshot.py", "pykickstart/commands/network.py", "pykickstart/commands/repo.py", "pykickstart/commands/timesource.py", "pykickstart/commands/driverdisk.py"]}
{"id": "C61", "title": "The text of an object in a data list is read back as the same object", "statement": "For part, partition, logvol, network, repo, driverdisk, sshpw, sshkey, device, user, group, fcoe, iscsi, zfcp, module and timesource: take any object that a handler holds after reading any lines, whose values are words (attributes that are written between double quotes may be any text without double quotes and backslashes). The text the command writes for it splits into the name of the command and arguments; if any handler of the version reads them as a line and accepts it, the object it appends has, for every option, the same value, or the value without options; the value is the same whenever it is true and the command writes that option (an explicit table: for example a passphrase only with --encrypted), and for flags and other listed attributes also when it is false.", "quantifier": "every supported version, every session of reading lines, every object it leaves behind, every handler that reads the text", "why_tests_cant": "a round-trip test checks the objects of a few lines; the property is about every combination of options and all values, which is an interplay of the option parser, the shell lexer and the text templates of about a hundred pairs of classes", "anchors": ["pykickstart/commands/partition.py: FC3_PartData.__str__, FC3_Partition.parse", "pykickstart/commands/logvol.py: FC3_LogVolData._getArgsAsStr", "pykickstart/commands/network.py: FC3_NetworkData._getArgsAsStr", "pykickstart/options.py: KSOptionParser.parse_known_args", "pykickstart/base.py: KickstartCommand.set_to_obj"]}
{"id": "C62", "title": "The text of a command without a data list is read back as the same settings", "statement": "For autopart, autostep, bootloader, clearpart, eula, harddrive, ignoredisk, lang, liveimg, logging, monitor, mouse, nfs, ostreesetup, reboot (with halt, poweroff and shutdown), reqpart, rescue, selinux, services, timezone, url, vnc, xconfig and zipl, where they are neither deprecated nor removed: let a handler that has read any lines, but none of this command, accept a line of the command, so that the values of its attributes are words (attributes that are written between double quotes may be any text without double quotes and backslashes). What the command prints consists of words: none, or a name of the command and arguments. If another handler that has read no line of the command accepts these words as a line, then every attribute has the value from the first handler, or the value it has without any option; and it has the value from the first handler whenever that is true and the command writes it. Per command, a table says under which conditions an attribute is written, which attributes are also written if they are false, and of which attributes nothing is claimed", "quantifier": "every supported version, every session of reading lines, every accepted line, every handler that reads the text", "why_tests_cant": "a round-trip test checks the objects of a few lines; the property is about every combination of options and all values, which is an interplay of the option parser, the shell lexer and the text templates", "anchors": ["pykickstart/commands/autopart.py", "pykickstart/commands/bootloader.py", "pykickstart/commands/clearpart.py", "pykickstart/commands/harddrive.py", "pykickstart/commands/ignoredisk.py", "pykickstart/commands/lang.py", "pykickstart/commands/nfs.py", "pykickstart/commands/reboot.py", "pykickstart/commands/services.py", "pykickstart/commands/timezone.py", "pykickstart/commands/url.py", "pykickstart/commands/vnc.py", "pykickstart/commands/xconfig.py", "pykickstart/options.py: KSOptionParser.parse_known_args", "pykickstart/base.py: KickstartCommand.set_to_self"]}
{"id": "C63", "title": "Commands that have read nothing keep their defaults and write nothing but the boot loader line", "statement": "Whatever lines a handler has read, accepted or refused, a command that was the first word of none of them has the attributes and the text that it has in a new handler. This text holds no command, except that every handler writes a bootloader line by default, and that versions before Fedora Core 4 write a second one for lilo. A line that is refused counts as read", "quantifier": "every supported version, every session of reading, resetting and masking, every command of the handler", "why_tests_cant": "a test checks a few commands after a few lines; the property is about the absence of an influence of any lines of all other commands", "anchors": ["pykickstart/base.py: KickstartHandler.dispatch, KickstartHandler.__str__", "pykickstart/commands/*.py: __init__, __str__"]}
{"id": "C64", "title": "After an accepted line the settings of a command satisfy its rules", "statement": "In every version, after a line that is accepted, and whatever lines came before it, the settings of its command satisfy the documented rules: autopart has no file system type btrfs and none at all with the scheme btrfs, and at most one of the two key derivation limits; the boot drive is a single one; cdrom, hmc and the first autopart take no arguments; the licence is agreed to; harddrive names exactly one of the two kinds of partition; ignoredisk gives exactly one of its ways to choose disks; logging has a host if it has a port; the ostree address is a file, http or https address and the remote has a name; rootpw gives a password or locks the account; services enables or disables something; timezone does not both name and disable time servers; upgrade has no empty root device; url gives an address. After the first line of a command, rescue does not ask for both kinds of mounting, rhsm has no empty activation key, and url has only one kind of address. (The full list with the versions is the specification in OwnRuleSpec.) A second line adds to the first, and a line that is refused can leave settings that do not satisfy the rules", "quantifier": "all versions, all sequences of lines, resets and maskings, all arguments", "why_tests_cant": "ranges over all sequences of lines and all arguments in all versions", "anchors": ["pykickstart/commands/autopart.py", "pykickstart/commands/bootloader.py", "pykickstart/commands/cdrom.py", "pykickstart/commands/hmc.py", "pykickstart/commands/eula.py", "pykickstart/commands/harddrive.py", "pykickstart/commands/ignoredisk.py", "pykickstart/commands/logging.py", "pykickstart/commands/ostreesetup.py", "pykickstart/commands/rescue.py", "pykickstart/commands/rhsm.py", "pykickstart/commands/rootpw.py", "pykickstart/commands/services.py", "pykickstart/commands/timezone.py", "pykickstart/commands/upgrade.py", "pykickstart/commands/url.py"]}
{"id": "C65", "title": "Every option sets the attribute it is documented to set, in the versions that have it", "statement": "For 115 base lines of 74 commands, in all versions in which the command is neither deprecated nor removed: when no line of the command, and none of a storage command that excludes it, has been read, the base line is accepted and gives the attributes the listed values. A further option from the list is accepted in the listed versions, and the settings differ from those of the base line in the listed attributes alone, which have the listed values; an option that stores a text stores any text that is not empty, unchanged. An option is refused in the neighbouring versions that do not have it, and where it contradicts the base line. (The list, with the versions, is the specification in LineTable.)", "quantifier": "all versions, all histories without a line of the command, all line numbers, all non-empty texts as values of options that store a text", "why_tests_cant": "a test checks an option in a few versions after a new handler; the property is about every state of the handler, every text, and all the other attributes, which must not change", "anchors": ["pykickstart/commands/*.py: __init__, _getParser, parse", "pykickstart/handlers/*.py", "pykickstart/options.py: KSOptionParser", "pykickstart/base.py: KickstartCommand.set_to_self, set_to_obj"]}
{"id": "C66", "title": "What a command writes after its first line", "statement": "For 32 commands that the read-back properties leave out (raid, volgroup, btrfs, mount, snapshot, nvdimm, dmraid, multipath, firewall, keyboard, rootpw, rhsm, syspurpose, firstboot, install, upgrade, the display modes, ...), in all versions in which the listed options exist: when no line of the command, and none of a storage command that excludes it, has been read, each of 230 listed lines is accepted, with every non-empty text as the value of an option that stores a text and is written as it is, and the command then writes exactly the listed text: its comment, its name and the options that were given, in the order and spelling of the version, and nothing else.", "quantifier": "all versions, all histories without a line of the command, all line numbers, all non-empty texts as values of options that store a text", "why_tests_cant": "a test compares the text of a few lines in a new handler; the property is about every state of the handler and all texts", "anchors": ["pykickstart/commands/*.py: __str__, _getArgsAsStr, parse", "pykickstart/handlers/*.py", "pykickstart/base.py: KickstartHandler.dispatcher"]}
{"id": "C67", "title": "The method attribute of a handler stands for the installation method in use", "statement": "In every version that has it and after any lines, resets and maskings, handler.method.method is the first of cdrom, harddrive, nfs, url (and liveimg, hmc where they exist) whose command is seen, and None if none is. Assigning one of these names makes its command the only one that is seen; assigning None leaves none seen; assigning any other name raises AttributeError, but leaves none seen either. None of this changes anything else in the handler. Reading another attribute of handler.method gives the attribute of the command in use (of url if there is none) and raises AttributeError if that has no such attribute; assigning it changes exactly this attribute of exactly this command, or raises AttributeError and changes nothing.", "quantifier": "all versions with the proxy, all histories of the handler, all attribute names, all values", "why_tests_cant": "a test sets one method in a new handler; the property is about every state and about everything that must not change", "anchors": ["pykickstart/commands/method.py: FC3_Method._clear_seen, _get_command, method, __getattr__, __setattr__", "pykickstart/handlers/*.py"]}
{"id": "C68", "title": "What ksvalidator says about a file", "statement": "When ksvalidator is asked to validate a file that can be fetched, for a version that exists, it returns 0 without a message exactly when the preprocessed text is not empty and reading it the ordinary way raises no exception, counts no error and makes neither the parser nor any command warn - wherever a raised warning may leave the command that issued it. It returns a message exactly when reading is broken off, and then returns 1. For a file of commands, without --firsterror, the value is the number of lines that fail or warn. Without --followincludes the answer depends on the preprocessed text alone, not on any file that is included. An empty file is never valid. The exit status tells valid files from invalid ones as long as there are fewer than 256 errors; with 256 wrong lines it is 0", "quantifier": "all files, versions, options, file systems and dispatchers, and all the ways in which a command can be left when its warning is raised", "why_tests_cant": "a test validates a few files; the property ranges over all files and compares two ways of reading them", "anchors": ["tools/ksvalidator.py: main, cleanup", "pykickstart/parser.py: KickstartParser._tryFunc, KickstartParser.readKickstart, preprocessKickstart", "pykickstart/errors.py: KickstartParseWarning"]}
{"id": "C69", "title": "Loading a location gives exactly its text", "statement": "A location that contains '://' is a URL, any other is a file. load_to_str of a file returns a text exactly when the file can be read and holds the UTF-8 encoding of that text (line ends are not translated); if it cannot be read it raises KickstartError, and if it holds something that is not UTF-8 it raises UnicodeDecodeError; there is no other failure for a name without NUL characters. load_to_str of a URL returns the text the server sent with status 200 and raises KickstartError in all other cases. After load_to_file the destination has the text of the location (or fails to be UTF-8 just like it) and every other file is as it was; when it fails no file has changed and the exception is a KickstartError. Reading a kickstart file that is not UTF-8 therefore raises UnicodeDecodeError whatever the configuration of the parser.", "quantifier": "all locations, destinations, file systems, servers and file contents", "why_tests_cant": "the contents and the failures range over all byte strings and all file systems; tests use a few files and mock the network", "anchors": ["pykickstart/load.py:_is_url,load_to_str,load_to_file,_load_url,_load_file,_copy_file", "pykickstart/parser.py:KickstartParser.readKickstart"]}
{"id": "C70", "title": "ksflatten writes a file that stands alone, or nothing", "statement": "ksflatten returns 0 exactly when a file is given, the version exists, reading the file with the commands of the version raises no exception and the output can be opened. It then writes the text of the handler for that version to the output file or to stdout, and no other file changes. In all other cases, including those in which an exception ends the program, no file changes and nothing is written; an exception that ends it is not a KickstartError and comes from reading the file or from a NUL character in the name of the output. If the handler's commands, scripts, sections and packages can be written (the conditions of C54), reading the output alone, on any other system, raises nothing, needs no other file, and gives the commands what their lines say, the same scripts and the same package selection.", "quantifier": "all files, includes, versions from Fedora 8 on (for the last part), file systems and networks", "why_tests_cant": "a test flattens a few files; that nothing else is needed and nothing is half written ranges over all files and failures", "anchors": ["tools/ksflatten.py: main", "pykickstart/parser.py:KickstartParser.readKickstart", "pykickstart/base.py:BaseHandler.__str__"]}
{"id": "C71", "title": "The kickstart shell", "statement": "Command lines typed into ksshell are run once each, in order, as line 1 of a file of their own; one that fails is counted and does not keep the others from being run. No KickstartError ends the shell; any other exception of the parser (such as ValueError for an open quote) does, and then no file changes. .show prints the text of the handler and changes nothing of it; an unknown internal command does nothing; .quit ends the shell like the end of input. At the end the text of the handler is written to the output or to stdout; an output that cannot be opened raises IOError. .clear gives the parser a new handler, but the section objects keep the old one: after .clear, whatever is typed, no script, package or other section reaches the handler that is written.", "quantifier": "all sequences of lines, all states of the shell, all versions and handlers", "why_tests_cant": "the sequences of lines are unbounded; the tests type a few lines", "anchors": ["tools/ksshell.py: main, ClearCommand, QuitCommand, ShowCommand", "pykickstart/parser.py:KickstartParser.readKickstartFromString,setupSections", "pykickstart/sections.py:Section.__init__"]}
{"id": "C72", "title": "Where a line stands matters only to line numbers", "statement": "Two handlers of the same version that differ only in the line numbers they have noted stay so when they read the same line at any two places, and accept it or raise the same exception (apart from its line number). The line numbers are kept under the name lineno in data objects and in the command objects; nothing else may differ, and both handlers write the same text. Hence two files that consist of the same parts - whatever blank lines and comments are between them, however the opening and closing lines of sections are laid out, and whichever parts come from included files - give the same commands, packages, scripts, platform, error count, messages, warnings and exception apart from line numbers, and the same text is written afterwards; ksflatten ends in the same way and leaves the same output for both.", "quantifier": "all versions, all histories of the handler, all files made of well-formed parts, all nestings of includes, all pairs of line numbers", "why_tests_cant": "a test reads a few files once; the property compares any two places in any two layouts for every command class", "anchors": ["pykickstart/parser.py:KickstartParser._stateMachine,_handleInclude", "pykickstart/base.py:KickstartHandler.dispatcher", "pykickstart/commands/*.py: parse, __str__, dataList", "tools/ksflatten.py: main"]}
{"id": "C73", "title": "What a handler writes for an object is accepted and gives the same object", "statement": "For part, partition, logvol, network, repo, device, user, group, fcoe, iscsi, zfcp, module and timesource: take any object that a handler holds after reading any lines, that loses nothing when it is written: its values are words (as in C61), every attribute has the value it has without options or is written (flags and other listed attributes always, others if they are not empty or zero and the condition in the table of C61 holds), and the options that the command asks for have values that are not empty. The text the command writes for it splits into the name of the command and arguments, and any handler of the version accepts them as a line, whatever lines it has read and refused before, unless it has read a line of a command that excludes this one (autopart and mount, for partitions and logical volumes). The object it appends has the same attributes with the same values, except for the line number, including mount points and the attributes that the command computes.", "quantifier": "every supported version, every session of reading lines, every object it leaves behind that loses nothing, every handler that reads the text", "why_tests_cant": "the values of the attributes and the histories of both handlers are unbounded; the tests check the text of single lines and never that it is accepted again", "anchors": ["pykickstart/commands/*.py: parse, __str__", "pykickstart/options.py:KSOptionParser.parse_args,parse_known_args", "pykickstart/base.py:KickstartHandler.dispatcher"]}
{"id": "C74", "title": "The text of a whole data list restores the list", "statement": "For the same commands: if all objects in the data list of a command lose nothing when they are written, reading their texts line by line, at any line numbers, in any handler of the version that has read no line of a command that excludes this one raises no exception and appends objects that are the same, in the same order, except for line numbers; if the list was empty, the command then writes the text that it writes in the first handler. Writing is a fixed point.", "quantifier": "every supported version, every session of reading lines, lists of objects of any length, every handler that reads the text", "why_tests_cant": "lists of any length and any order of objects; duplicates only warn", "anchors": ["pykickstart/commands/*.py: __str__, parse, dataList", "pykickstart/base.py:KickstartCommand.__str__,KickstartHandler.dispatcher"]}
{"id": "C75", "title": "A file that is written is read and written again unchanged", "statement": "In every version without lilo, take a handler that has read any lines. Suppose that the text of each command that has read a line is stable: it consists of lines of the command and comments, and a new handler that reads only these accepts them and writes the same text for the command; and that no command writes text next to one that excludes it. Then the whole text consists of such lines and comments, a new handler accepts all of it at any place in a file, and it writes the same text, as a whole and command by command: reading the text of one command does not disturb another, and what commands write without having read a line is harmless. A parser that reads the whole written file - with packages, scripts and kept sections that can be written - raises nothing and counts no error, and if there are no packages and no kept sections and the scripts end with a line end, it writes the same file. The text of a command of C73 is stable if its objects lose nothing when they are written and each of them is written on one line (a value with a line break in it is written on two lines, which are refused). In FC3, RHEL3 and RHEL4 this fails: the object of lilo writes a second bootloader line, which undoes the first when the file is read. A command that is refused because another excludes it is written nevertheless, and the written file is then refused.", "quantifier": "every supported version without lilo, every list of lines read before, every place at which the text is read, all scripts, packages and sections that can be written", "why_tests_cant": "the interaction of the texts of all commands ranges over all files; a test reads and writes a few single lines", "anchors": ["pykickstart/base.py: KickstartHandler.__str__, BaseHandler.__str__, KickstartHandler.dispatcher", "pykickstart/commands/*.py: __str__, parse, handleExtraWords", "pykickstart/commands/lilo.py, bootloader.py: FC3_Lilo, FC3_Bootloader", "pykickstart/parser.py:KickstartParser.readKickstartFromString"]}
{"id": "C76", "title": "What a command without a data list writes restores its settings", "statement": "For autopart, autostep, bootloader, clearpart, eula, harddrive, ignoredisk, liveimg, logging, monitor, nfs, reqpart, rescue, selinux, services, url, xconfig and zipl (autopart from F9, bootloader from FC4, clearpart up to F16, harddrive from F33): let a handler that has read any lines, but none of the command, accept a line of it, such that nothing of the settings is lost when they are written: the values are words, and every attribute has the value it has without options or is written, and a boot loader password is not encrypted. The text splits into the name of the command and arguments, and any handler of the version that has read no line of this command or of one that excludes it accepts them, whatever else it has read; all attributes then have the same values and the command writes the same text. If the text is one line after comments it is stable in the sense of C75. Hence a file in which every command that has read a line is of this kind, or is a data list of C74 whose objects are written on one line each, or has a stable text, is written as a text that is accepted as a whole and written again unchanged. A value with a line break is written on two lines that are not accepted, and the text after a refused line need not be accepted.", "quantifier": "every supported version, every session of reading lines, all argument lists of the line that is read, every handler that reads the text, all files of lines of these kinds", "why_tests_cant": "the argument lists and the histories of both handlers are unbounded; the tests compare the text of single lines with expected texts", "anchors": ["pykickstart/commands/*.py: parse, __str__", "pykickstart/options.py:KSOptionParser.parse_args", "pykickstart/base.py:KickstartCommand.set_to_self,KickstartHandler.dispatcher,KickstartHandler.__str__"]}
{"id": "C77", "title": "Some commands write one of a few texts, and each is read again as it is", "statement": "For autostep, cdrom, cmdline, graphical and text (before F26), eula, firstboot, halt, poweroff, reboot and shutdown, hmc, install and upgrade (before F11), interactive, lilocheck, mediacheck, skipx, unsupported_hardware and zerombr: after any lines, accepted or refused, valid or not, also with resets and masked commands, the command writes nothing or one of the texts listed in a table for the version. Each of them is stable in the sense of C75: a new handler accepts it and writes it again. Hence the theorem of C76 on whole files holds without any condition on these commands.", "quantifier": "every supported version, every session of reading lines, all files of lines of these kinds and of the kinds of C76", "why_tests_cant": "sessions are unbounded, and lines may be refused half way; the tests check the texts after single lines", "anchors": ["pykickstart/commands/{autostep,cdrom,displaymode,eula,firstboot,hmc,interactive,lilocheck,mediacheck,reboot,skipx,unsupported_hardware,upgrade,zerombr}.py: __str__, parse", "pykickstart/base.py:KickstartHandler.dispatcher,KickstartHandler.__str__"]}
{"id": "C78", "title": "Plain settings of lang, keyboard, timezone and rootpw are read again as they are written", "statement": "After any lines, accepted or refused: if the settings of lang, keyboard, timezone or rootpw are plain, what is written for the command is stable in the sense of C75: a new handler accepts it and then writes the same. The new handler then also has the same settings: the same words and lists are set, and the same flags are on (the options for switching count only with layouts, and whether the password is encrypted only with a password). Plain means: the language, the zone, a keyboard before F18 and the elements of the supported languages and the NTP servers are words without blanks, quotes, backslashes and #, that do not start with a minus where they are a positional argument; a keyboard name from F18 on and the elements of the layouts and the switch options have no single quote and no line break (elements also no comma and no blanks at the ends), and the old and the new format are not both used; a password is such a word, or has a # and no double quote, backslash and line break; NTP is not both off and with servers, and there is at most one server where the class keeps them in a set (F18 to F22 without RHEL7). A locked root account without a password is plain from F18, and a time zone command without a zone from F25. A command that writes nothing, and writes nothing at the start, has a stable text. Hence the theorem of C77 on whole files asks nothing of commands with plain settings or without text. It is also shown that a keyboard of two words before F18, a keyboard in both formats, and passwords with a quotation mark or a blank are not written so that they are read again, and that from F18 the options for switching are lost when they are given with a keyboard name.", "quantifier": "every supported version, every session of reading lines, all words, all lists of words, all files of lines of these kinds and of the kinds of C77", "why_tests_cant": "words, lists and histories are unbounded; the tests compare the texts of some single lines with expected texts", "anchors": ["pykickstart/commands/{lang,keyboard,timezone,rootpw}.py: parse, __str__, _getArgsAsStr", "pykickstart/options.py:KSOptionParser.parse_args,parse_known_args,commaSplit", "pykickstart/base.py:KickstartHandler.dispatcher,KickstartHandler.__str__"]}
{"id": "C79", "title": "What ksverdiff says of two versions, and what the kickstart shell offers", "statement": "The commands that ksverdiff lists as removed between two versions are exactly those of the first that the second does not know, or that only the second has as removed; every line of such a command is refused by every handler of the second version, whatever it has read. Those listed as deprecated are exactly those known to both that are deprecated and not removed in the second; their lines are accepted there and nothing is written for them. Those listed as added are exactly those only the second knows; every handler of the first refuses them as unknown. The lists are in strict order. For a command with an option parser in both versions, the options listed as added, removed or deprecated are exactly those whose first names are new, gone or deprecated; an option of the first version that is not listed as removed is recognised under its name, with or without a value, by the parser of the second. The other direction swaps added and removed, and a version compared with itself has neither. The program returns 0 or 1 and never raises an exception, and 1 exactly if no list of versions is asked for and a version is missing or not supported. While the first word of a line is typed, ksshell offers exactly the names that begin with what is typed, of commands of the version and of the shell; for a later word it offers the names of the options of the command that begin with what is typed, all of them, and the parser of the command recognises each of them as the option it belongs to; asking for one more state than there are candidates gives each of them once, in order, and then None. Findings: a command that comes back after it was removed is not reported; a deprecated command is listed every time; the options of url are listed for method also; ksshell offers commands of which every line is refused.", "quantifier": "all pairs of supported versions, all sessions of reading lines, all commands and options, all lines and cursor positions, all values of options", "why_tests_cant": "the tests compare the lists of three pairs of versions and the candidates for two lines; what a list means ranges over all pairs of versions, handlers and lines", "anchors": ["tools/ksverdiff.py: getCommandSet, getOptSet, printList, main", "tools/ksshell.py: KickstartCompleter", "pykickstart/commands/*.py: __init__, _getParser", "pykickstart/base.py:DeprecatedCommand,RemovedCommand", "pykickstart/commands/method.py: FC3_Method.__getattr__", "pykickstart/options.py:KSOptionParser._parse_optional"]}
{"id": "C80", "title": "Commands that keep the text of their line are read again as written", "statement": "In every session, for every version that has the command: if the text that auth, authconfig or authselect keeps is not empty, has no line break and no blanks at its ends and can be split into words, then what the command writes is read by a new handler without an error, the new handler writes the same for the command, and it keeps the same text; the same holds for realm, with the realm joined, its arguments and its discover options, for any arguments without line breaks, whatever quotation marks, blanks, backslashes or comment signs they contain, and also if no realm was joined. A file of commands of which each is of a kind shown to be stable so far, or of this kind, is read again and written the same. Finding: blanks before the name are not taken into account when the name is cut off the line, so that auth keeps the end of its own name and realm refuses the line.", "quantifier": "all supported versions, all sessions, all texts and arguments that meet the stated conditions", "why_tests_cant": "the text kept is arbitrary, realm takes part in two splittings of the same line with different treatment of comment signs, and the state is that after any number of lines; tests read a few fixed lines", "anchors": ["pykickstart/commands/authconfig.py: FC3_Authconfig.parse,__str__, F28_Authconfig.parse", "pykickstart/commands/authselect.py: F28_Authselect.parse,__str__", "pykickstart/commands/realm.py: F19_Realm", "pykickstart/parser.py: KickstartParser.handleCommand"]}
{"id": "C81", "title": "What a line of auth, authconfig, authselect or realm does", "statement": "In every session in which the command is not masked: a line that begins with auth, authconfig or authselect is accepted whatever follows; what follows, without the blanks around it, is then the setting, and exactly it is written after the name, or nothing if it is empty; nothing that was set before has any influence. If the parser has split the line into words, what follows has no line breaks and the blanks around it are ordinary ones, then the text written is stable in the sense of C75 and a new handler that reads it has the same setting. A realm line is accepted exactly if no realm (or one with an empty name) was joined before, what follows the name is split into join and arguments, and getopt accepts the arguments and leaves one word; then the realm, the arguments and the discover options (those of the options client-software, server-software and membership-software, in order) are kept, and a line that is refused changes none of them. Findings: a realm line with a comment is refused; realm can be given again after an empty name.", "quantifier": "all supported versions, all sessions of reading lines, resets and masking, all lines", "why_tests_cant": "lines and histories are unbounded, and the line is split twice in different ways; the tests try a few fixed lines on new objects", "anchors": ["pykickstart/commands/authconfig.py: FC3_Authconfig.parse,__str__, F28_Authconfig.parse", "pykickstart/commands/authselect.py: F28_Authselect.parse,__str__", "pykickstart/commands/realm.py: F19_Realm._parseArguments,_parseJoin,parse", "pykickstart/base.py:KickstartHandler.dispatcher", "pykickstart/parser.py: KickstartParser.handleCommand"]}
{"id": "C82", "title": "iscsiname, updates and the display modes are read again as they are written", "statement": "In every session, for every version that has the command: if iscsiname or updates has a plain word as its setting (without blanks, quotes, backslashes and #, not beginning with a minus), what the command writes is stable in the sense of C75 and a new handler that reads it has the same setting; before F34 updates without an address is also written and read as such. From F26, cmdline, graphical and text write nothing, or one of five texts, which are stable and restore the mode and whether it is interactive, or one of two texts that are refused. After a line of these that is accepted, in any session in which the command is not masked, the mode is that of the line, whatever was set before, and what is written is one of the five texts, for this mode. A file of commands of which each is of a kind shown to be stable so far, or of this kind, is read again and written the same. Finding: cmdline --non-interactive is refused, but exactly this line is written afterwards.", "quantifier": "all supported versions, all sessions, all plain words, all argument lists of a line, all files of lines of these kinds", "why_tests_cant": "words, argument lists and histories are unbounded; the tests compare the texts of some single lines with expected texts", "anchors": ["pykickstart/commands/iscsiname.py: FC6_IscsiName", "pykickstart/commands/updates.py: F7_Updates, F34_Updates", "pykickstart/commands/displaymode.py: FC3_DisplayMode, F26_DisplayMode", "pykickstart/base.py:KickstartHandler.dispatcher,KickstartHandler.__str__"]}
{"id": "C83", "title": "Lists of ssh keys and passwords are read again as they are written", "statement": "In every session, for every version that has sshkey or sshpw, if the command is not masked: suppose each object in its list is plain, that is, its user name is not empty and needs no quoting, a key has no double quotation mark, backslash or line break and does not begin with a minus (blanks and # are allowed), and a password consists of plain words with one blank between. Then the text of the command is stable in the sense of C75, and a new handler that reads it has as many objects in the same order: with the same user names, the same keys and passwords, from F24 the same choice between a key and a password, and the same flags for locked and encrypted where there is no key. This holds for lists of any length, also with several lines for one user. A file of commands of which each is of a kind shown to be stable so far, or of this kind, is read again and written the same. Findings: a key with double quotation marks, a password with two blanks in a row and a password with # are not restored, and a lock next to a key is lost.", "quantifier": "all supported versions, all sessions, lists of any length, all keys and passwords that meet the stated conditions", "why_tests_cant": "lists, words and histories are unbounded; the tests compare the texts of some single lines with expected texts and do not read them again", "anchors": ["pykickstart/commands/sshkey.py: F22_SshKeyData, F22_SshKey", "pykickstart/commands/sshpw.py: F13_SshPwData, F24_SshPwData, F13_SshPw, F24_SshPw", "pykickstart/base.py:KickstartHandler.dispatcher,KickstartHandler.__str__"]}
{"id": "C84", "title": "The snapshots are read again as they are written", "statement": "In every session, for every version that has snapshot, if the command is not masked: suppose each snapshot has an origin that is a plain word (not empty, no minus at the beginning, nothing to quote) and a name that is not empty and needs no quoting, and its time is one of the two that the command knows. Then the text of the command is stable in the sense of C75, and a new handler that reads it has as many snapshots in the same order with the same origins, names and times. In particular no line is refused: that each origin has two parts and that no name is used twice follow from the history of the session. This holds however the session came about, including refused lines. A whole file is written again unchanged when its snapshots are of this kind and the rest satisfies C83.", "quantifier": "all supported versions, all sessions, lists of any length, all names and origins that meet the stated conditions", "why_tests_cant": "lists, words and histories are unbounded, and each line is checked against all those before it; the tests compare the texts of some single lines and do not read them again", "anchors": ["pykickstart/commands/snapshot.py: F26_SnapshotData, F26_Snapshot", "pykickstart/base.py:KickstartHandler.dispatcher,KickstartHandler.__str__"]}
{"id": "C85", "title": "The NVDIMM devices are read again as they are written", "statement": "In every session, for every version that has nvdimm, if the command is not masked: suppose each object in its list says one of three things in plain words: to use a namespace, to use a list of one or more block devices, or to reconfigure a namespace in sector mode with a sector size (names are not empty and need no quoting, devices contain no comma). Then the text of the command, with the comment before and the blank line after the list, is stable in the sense of C75, and a new handler that reads it has as many objects in the same order that say the same. No line is refused; that a sector size is not 0 follows from the history of the session. A whole file is written again unchanged when its NVDIMM devices are of this kind and the rest satisfies C84.", "quantifier": "all supported versions, all sessions, lists of any length, all names, lists of devices and sector sizes that meet the stated conditions", "why_tests_cant": "lists, words, numbers and histories are unbounded; the tests compare the texts of some single lines and do not read them again", "anchors": ["pykickstart/commands/nvdimm.py: F28_NvdimmData, F28_Nvdimm", "pykickstart/base.py:KickstartHandler.dispatcher,KickstartHandler.__str__"]}
