# Formal model of pykickstart in Lean 4

## Approach

The model is a set of small total Lean functions over `List Char` strings, `Nat`/`Int`,
`Option`, `Except` and plain structures, mirroring the Python functions branch by branch.
Python exceptions are values; functions that mutate objects before raising return the
mutated state together with the exception, because the Python objects keep the mutation.

Modules (all under `lean/Verif/`):

| module | models / contains |
|---|---|
| `PyStr` | the Python `str` methods used (strip, split, splitlines, partition, join, startswith, ...) |
| `PyInt` | `int(str)` and `str(int)` |
| `Shlex` | `shlex.split` (CPython 3.11, POSIX mode, `whitespace_split`) |
| `PosixPath` | `os.path.normpath`, `dirname`, `join` |
| `Version` | `pykickstart/version.py` |
| `Errors` | `pykickstart/errors.py` |
| `Options` | `pykickstart/options.py` value helpers |
| `ArgparseLine`, `Argparse` | `KSOptionParser` on top of CPython 3.11 `argparse` |
| `Packages` | `Packages` and `Group` of `parser.py` |
| `Sections` | `Script` of `parser.py`; `sections.py` |
| `Parser` | `KickstartParser`: state machine, sections, includes |
| `Preprocess` | `preprocessKickstart*` (`%ksappend`) |
| `Handler` | `KickstartHandler`, `BaseHandler`, `KickstartCommand` and `BaseData` of `base.py` |
| `Commands/Base` | what command classes are made of: attribute lists, a monad for `parse`, a description language for `__str__` |
| `Commands/<Module>` | every class of `pykickstart/commands/<module>.py`: attributes, option parser, `parse`, `__str__`, data class |
| `Commands/Maps` | `handlers/*.py`: the command map of each of the 38 versions |
| `Commands/Lines`, `Conflicts`, `ConflictMaps`, `LocalLogic`, `Local` | what a handler knows after some lines, which commands refuse each other, which other commands a command looks at |
| `Commands/Logic`, `Safe`, `Ok`, `Classes`, `MapsOk`, `Session` | which exceptions `parse` raises and what it may change, for each class, each map and every history of a handler |
| `Commands/PostLogic`, `ListLogic`, `Lists`, `StageLogic`, `Stages` | what `parse` returns; that every accepted line returns one numbered object; which commands are deprecated or removed in which version |
| `Commands/RuleSpec`, `RuleLogic`, `RuleLogic2`, `Rules` | the rules for data objects of twelve commands, and which versions guarantee them (`Rules` written by `scripts/gen_rules.py`) |
| `Commands/Template`, `TemplateLex`, `ArgparseMixed` | the words of a text template, computed piece by piece, and how the option parser reads words among which are positional arguments |
| `Commands/ReadBack`, `ReadBackLemmas` | a check of a template against an option parser and its soundness: every option that is written stores the value it shows, every value is written under known conditions |
| `Commands/ReadBackPlain` | objects whose values are words (`Plain`, specification), for which the text is safe |
| `Commands/ReadBackLogic`, `Sheets`, `ReadBackPart`, `…Logvol`, `…Network`, `…Others` | what is claimed of each command (`Sheets`, specification) and the check of each pair of classes (written by `scripts/gen_readback.py`) |
| `Commands/SelfLogic`, `SelfIgnore` | the program logic for commands that keep the options in their own attributes: attributes before and after `parse` |
| `Commands/Stripped`, `StripTexts` | texts that are stripped at the end (`rstrip`, `strip`) as templates, and those with a choice of sources (`url`) |
| `Commands/SelfSheets`, `SelfBack1` … `3` (generated) | what is claimed of each command without a data list (`SelfSheets`, specification) and the check of each class |
| `Commands/OwnRuleSpec`, `OwnRuleLogic`, `OwnRules` (generated) | rules for the attributes of the commands without data lists (`OwnRuleSpec`, specification), a logic for checks on the command itself, and every class that a map gives |
| `Commands/LineSpec`, `LineTable` (generated), `LineLogic`, `FirstLines*` (generated) | what the first line of a command does: which options it has in which versions and which attributes they set (`LineTable`, specification), and the check of every class against it. The table was drafted by evaluating the model (`scripts/draft_lines*.py`); `scripts/check_lines.py` compares it with the option parsers in the text of `/repo`, independently of the model: of 17210 pairs of a row and a version, 13805 agree literally, and the 166 kinds of others (options with a type function, options refused by a check of the command) were compared by hand |
| `Commands/TextSpec`, `TextTable`, `TextLogic`, `FirstTexts*`, `Props/TextProps` | what a command writes after its first line (C66); the table and the checks are written by `scripts/gen_texts.py`; the texts in the table were compared with the `__str__` methods in `/repo` by hand |
| `Commands/MethodProxy`, `Props/MethodProps` | the attribute proxy of the `method` command (`commands/method.py`), C67; attributes found on the class and the `internals` are not modelled |
| `Validator`, `ValidatorLemmas`, `Props/ValidatorProps` | `tools/ksvalidator.py`, C68; its own command line, the texts of its messages and the removal of its temporary files are not modelled; a warning that is raised leaves the command in an unspecified state |
| `Load`, `Tools`, `Props/LoadProps`, `Props/ToolProps` | `load.py` over a parameter for the files and the network (C69); `tools/ksflatten.py` (C70) and `tools/ksshell.py` (C71) |
| `Commands/NearLogic`, `Near1`, `Near` (generated), `NearHandler`, `Props/NumberProps` | what the commands do with the number of their line: two runs of a program on objects that differ only in line numbers, rule by rule, then for every class (`scripts/gen_near.py`), every map and every handler (C72) |
| `Commands/NormalArgs`, `NormalLogic`, `NormalSims`, `NormalClasses`, `NormalSpec`, `NormalPart`, `NormalLogvol`, `NormalNetwork`, `NormalOthers` (generated by `scripts/gen_normal.py`), `Props/NormalProps` | the text of an object is accepted and gives the same object: what the option parser makes of words and options in the order in which they are written, a relational logic for `parse` on two lines that the option parser treats alike, and a decidable check for every class (C73, C74) |
| `Commands/FramedLogic`, `Framed` (generated by `scripts/gen_framed.py`), `Props/StableProps`, `StableLists` | reading a written file again: command texts that are stable one by one are stable together, since dispatch of a line touches only its own object and looks only at the seen flags of rivals (C75) |
| `Commands/PlainNormalLogic`, `PlainNormalSims`, `PlainNormalSpec`, `PlainNormalLock`, `PlainNormal1`-`3` (generated by `scripts/gen_plainnormal.py`), `Props/KeepProps` | the same for commands without a data list: their text is accepted and restores the settings (C76) |
| `Commands/FixedLogic`, `FixedTexts` (generated by `scripts/gen_fixed.py`), `Props/FixedProps` | commands whose text is one of a few, whatever was read (C77) |
| `Commands/WordLogic`, `Props/WordProps`, `WordProps2`, `WordProps3`, `PlainProps` | parsers with one word among options; `lang`, `keyboard`, `rootpw`, `timezone` in every session (C78) |
| `Commands/OpTable`, `Commands/OpBuilt`, `VerDiff`, `Props/VerDiffProps` | what the tools see of the classes: their parsers and whether they are deprecated or removed (the two tables are written by `scripts/gen_optable.py` from the class statements and `__init__` methods in `/repo`); `tools/ksverdiff.py` and the completion of `tools/ksshell.py` (C79) |
| `Props/RawProps` | what `auth`, `authconfig`, `authselect` and `realm` keep of their lines is restored (C80) |
| `Props/RawLineProps` | what a line of these commands does, in any session (C81) |
| `Props/SmallProps` | `iscsiname`, `updates` and the display modes from F26 (C82) |
| `Props/SshProps` | lists of lines with words at the end: `sshkey` and `sshpw` (C83) |
| `Props/SnapProps` | lists of lines that look at the objects before: `snapshot` (C84) |
| `Props/NvdimmProps` | lists between a comment and a blank line: `nvdimm` (C85) |
| `*Lemmas`, `ArgparseCanon`, `ArgparseShape`, `OptLemmas`, `PackagesHeader` | lemmas about the definitions above |
| `Document`, `Includes` | specification: what a kickstart file consists of, what reading it has to do, how includes expand; proof that the parser does it |
| `Props/*` | the property theorems, each next to a small independent specification and non-vacuity examples |

The file system/network is a parameter: a function from locations to contents or failure.
The commands' `parse` methods are a parameter of the parser model (so parser theorems hold
for every handler) and are instantiated for the modelled commands.

## Trusted base

* Lean's kernel; axioms at most `propext`, `Classical.choice`, `Quot.sound` (list per theorem below).
* My reading of `/repo` and of CPython's `shlex`, `argparse`, `str` and `posixpath` sources
  (each definition cites what it models).
* Strings are lists of Unicode scalar values: lone surrogates are not representable.

### Modelled

* `version.py` completely, with the handler modules as a table.
* `errors.py` messages; warnings as values in a log.
* `options.py`: value helpers and `KSOptionParser` with everything of `argparse` its callers use
  (prefix abbreviations, `nargs`, `choices`, mutually exclusive groups, `required`, `version`/`deprecated`/`removed`).
* `parser.py`: `PutBackIterator`, `Script`, `Group`, `Packages`, `KickstartParser`, `preprocess*`.
* `sections.py`: `NullSection`, `ScriptSection` and its subclasses, `PackageSection`.
* `base.py`: command registration, dispatch, masking, resetting, writing, `__call__`, removed attributes.
* `commands/*.py`: every command and data class (74 modules), `handlers/*.py`: every command map.  The Lean text of most classes
  was written by a translator (`scripts/gen_commands.py`, `scripts/gen_overrides.py`) that reads `/repo` with Python's `ast` module
  and stops at anything it does not know, and was then read against the source; `Multipath` and the parts listed in
  `gen_overrides.py` were written by hand.  The Lean text, not the translator, is what the theorems are about.  Simplifications,
  each repeated at the definition: objects are made without keyword arguments; `dataClass` is the class in the handler's data map;
  formatting with `%` never fails; `list(set(l))` keeps the order of the first occurrences; messages are tags; attributes that a
  method of the repository never reads again (`op`, `handler`, ...) are left out; `method` (a proxy for another command) can do
  nothing but raise the exception it raises.

### Not modelled

* Message texts are tags: the theorems say which exception with which line number, not which translated words, except for
  `errors.py` itself and where a message contains a name.
* The files and the network are parameters (`Disk`, `Net`, `World`); `i18n` and the
  command lines of the tools are not modelled.
* `lower` and `upper` are those of ASCII. Python also folds a few other letters, so it accepts some spellings the model refuses:
  `raıd0` (dotless i) as a raid level, `Red Hat Enterpriſe Linux 8` (long s, under `re.I`) as a version, `--when=poſt-install`-like words for `snapshot`.
* `argparse` help output and `parse_intermixed_args` are not modelled.
* Class attributes shared between objects (`Script._ver`, `Packages._ver`) are parameters of the functions that read them.
* The data maps of the handlers (`registerData`) appear only as the data class that a command is given.

## Findings

Where a property is false of the code, the negation is proved with a concrete witness, and a `_partial`
theorem says what holds.

1. `makeVersion("DEVEL")` and long names such as `"Fedora 34"` raise although `stringToVersion` accepts them (C04).
2. A line consisting of `""` raises `IndexError`, an unbalanced quote `ValueError`, a package line `-` `IndexError` (C42).
3. `NullSection` inserts a blank line after each body line, and several such sections are run together on output: read back they are one section (C41).
4. A blank script section leaves its lines in the buffer, where the next script of the kind gets them (C27).
5. `%packages --default` with an environment loses the environment on output; a group that is excluded and then selected is written in an order that drops it (C22).
6. `resetCommand` replaces the object of one name only: aliases keep the old one (C47). `maskAllExcept` also empties the list of commands to write (C49).
7. `seen` is set before the line is parsed, even when parsing fails (C48).
8. A `%ksappend`ed file without a final line feed runs together with the next line (C43).
9. With `missingIncludeIsFatal=False` a cyclic include ends in a swallowed error instead of an exception (C34, C38).
10. `mount /dev/x -- --` raises `IndexError`; `realm join x # it's` raises `ValueError`, because the command splits the raw line
    again without treating `#` as a comment; `raid --device=x` raises `ValueError` before F19; `method` raises `TypeError` before
    F34; errors of `nvdimm` carry no line number (C55).
11. `multipath`: the index 0 counts as "no device yet"; a further path of any other device puts a path object among the devices,
    after which the next `multipath` line raises `AttributeError` (C55).
12. In `handlers/rhel7.py`, `install` and `upgrade` have different classes that share the attribute `handler.upgrade`.
13. `resetCommand("part")` makes a new object for `part` and for `handler.partition`, but `partition` is still served by the old one, so
    `autopart` is accepted after a `partition` line (C56). Between F16 and F19 `volgroup` refuses `autopart` but not the other way round.
14. The exit status of `ksvalidator` is the number of errors modulo 256: a file with 256 wrong lines exits with 0. An empty file is
    refused, because `preprocessKickstart` returns `None` for it and `readKickstart(None)` raises `TypeError` (C68).
15. A kickstart file that is not UTF-8 is not refused with a `KickstartError` but raises `UnicodeDecodeError`, also for an include with
    `missingIncludeIsFatal=False` (C69).
16. After `.clear`, sections that are read in `ksshell` still go to the handler that was cleared away and are missing from what is written;
    a line with an open quote ends the shell with `ValueError`, and everything typed is lost (C71).
17. `ksverdiff` does not report a command that comes back after it was removed (`langsupport` from F7 to FC3), lists deprecated commands
    and options again in every comparison, and lists the options of `url` for `method` also, because `hasattr(method, "op")` finds the
    parser of `url`. The completion of `ksshell` offers commands of which every line is refused (C79).
18. `auth`, `authconfig`, `authselect` and `realm` cut the length of their name off the line as it was read, with its leading blanks:
    `  auth --enablemd5` is accepted and written as `auth th --enablemd5`, and ` realm join a` is refused (C80).
19. `realm` splits its line again without taking `#` for a comment, so a `realm` line with a comment is refused; and it can be given
    again after `realm join ''`, because an empty name counts as no realm (C81).
20. From F26, `cmdline --non-interactive` is refused, but its settings stay: exactly this line is then written, and it is refused when the
    written file is read (C82).
21. `sshkey` writes a key in double quotation marks without escaping those in the key (`command="x" ssh-rsa A`), and `sshpw` writes the
    password as it is: two blanks become one when it is read again, and what follows a `#` is lost. From F24, `sshpw --sshkey --lock` is
    written without `--lock` (C83).
22. `snapshot` writes its name and origin without quotes; a name with a blank, `#`, a quotation mark or a backslash is not restored (C84).
23. `nvdimm use` accepts `--sectorsize` and does not write it (C85).

## Per property

| property | model | proof |
|---|---|---|
| C01 C02 | `Version.versionMap`, `stringToVersion`, `versionToString` | finite table by `decide` lifted over all integers; characterisation of the two regular expressions against a declarative language |
| C03 | `versionFromFile` over any loader | induction over the lines |
| C04 | `returnClassForVersion` with the handler modules as a table | table, plus negation witnesses (`DEVEL`, long names) |
| C05 C06 C07 | `Options`, `PosixPath` | induction over characters / components |
| C08 C09 | `Shlex` | induction over the token list with the lexer state generalized |
| C10-C15 | `Argparse` | case analysis of the parse loop; canonical-argument lemma by induction over the argument list |
| C16 | `setToObj` | induction over the namespace |
| C17-C21 | `Packages.add` | refinement to "last mention" by induction over the history |
| C22 C23 | `Packages.str` and the parser | round trip through line splitting, tokenizer, header parser and `add` |
| C24-C27 | `Script`, `Sections`, `Parser` | induction over body lines |
| C28-C42 | `Parser` | induction over the line list, generic in the handler; includes by recursion on the include budget |
| C43 C44 | `Preprocess` | induction over lines |
| C45-C51 | `Handler` | invariants over registration and dispatch histories |
| C52 C54 | `writeHandler`, `Parser` | the written file is split into parts (`Document`), whose execution is computed part by part |
| C53 | `Errors` | direct |
| C55 | `Commands/*`, `Handler` | a Hoare-style logic for `parse` (`Logic`), one theorem per class (`Safe`, `Classes`), lifted over the maps and by induction over the history |
| C56 | `Commands/*`, `Handler` | `M.Fails` (`Conflicts`): `parse` raises whenever another command was seen, for each checking method; a table per version (`ConflictMaps`); `Lines`: after any lines a command counts as seen iff a line named it |
| C57 | `Commands/*`, `Handler` | `M.Local` (`Local`): which other commands `parse` looks at, for each class; then two calls change different objects and do not look at each other |
| C58 | `Commands/*`, `Handler` | `M.Post` (`PostLogic`): what `parse` returns carries the line number, for each class (`Lists`); then by induction over the lines. `multipath` is excluded and a witness shows why (`C58_multipath`) |
| C59 | `Commands/*`, `Handler` | the tables `deprecatedIn`, `removedIn` (specification) against the maps (`Stages`); leaving lines out by a simulation between handlers that differ in objects of deprecated commands only |
| C60 | `Commands/*`, `Handler` | the rules are structures of propositions about one object (`RuleSpec`, specification); that `parse` returns only objects that satisfy them by following each branch (`RuleLogic`, `RuleLogic2`), that the classes of every version are covered (`Rules`, generated), and the invariant over all sessions that every object in a list was returned by `parse` when the list held the objects before it (`RuleProps`) |
| C61 | `Commands/*`, `Argparse`, `Shlex`, `Handler` | what is claimed is a table of sheets (`Sheets`): attributes without a claim, conditions under which an option is written, attributes that may hold any text; that a template and an option parser fit is a decidable check, proved sound for all values (`readBack`) and evaluated by the kernel for every pair of classes; that the objects of a session come from `parse` by C60's invariant. Not claimed: that the text is accepted (commands also look at other commands), positional arguments and attributes that `parse` computes; btrfs, raid, volgroup, mount, nvdimm, snapshot, dmraid and multipath, whose texts are not templates of options |
| C62 | `Commands/*`, `Argparse`, `Shlex`, `Handler` | a table of sheets (`SelfSheets`) as for C61; the check of C61 on the templates and option parsers, a logic that says that `parse` leaves the attributes as `set_to_obj` of the parsed options (except for those without a claim), and the invariant that an object that is not seen has the attributes of a new one. Not claimed: positional arguments, values that `parse` computes, that the text is accepted. False without the conditions of the sheets: `C62_passphrase_lost`, `C62_clearpart_lost`, `C62_vnc_port_lost`, `C62_level_lost`, `C62_disabled_lost` |
| C63 | `Commands/*`, `Handler`, `Shlex` | invariant over sessions: an object that is not marked as seen is as a new one; the texts of all new objects of all versions are computed by the kernel |
| C64 | `Commands/*`, `Handler` | Hoare-style postconditions over `parse` of each class about the attributes of the command (`OwnRuleLogic`), for every class that a version's map gives; lifted to sessions. Refused lines and second lines can break the rules: witnesses |
| C65 | `Commands/*`, `Handler` | `parse` of a class on a new object is evaluated by the kernel with symbolic line, line number and option value (`Eq.refl`), for every class that a version's map gives; lifted to every session in which the command is unread by C57's locality and C63's freshness. Options whose value is looked at (types, choices, checks) have literal values in the table. `multipath` is left out (its data list is edited in place) |
| C66 | `Commands/*`, `Handler` | `parse` and `__str__` of a class on a new object are evaluated by the kernel with symbolic line, line number and option value; where the text contains the value, the tactic `text_rfl` asks the kernel how the parts of the text are put together and proves the rest by associativity. Rows whose value the code inspects (`raid` and `volgroup` strip the text, `dmraid` and `multipath` cut the name at `/`) have fixed values. The classes of `raid` are checked at the versions where the text changes and at the last version. |
| C67 | `Commands/MethodProxy`, `Handler` | the objects of the methods exist in every session and are different, because the name of a handler attribute is determined by the class of its object; then induction on the list of methods |
| C68 | `Validator`, `Parser`, `Preprocess` | the loop of the parser is run with the ordinary and with a raising `handleHeader` and dispatcher; a relation between the two runs (counters grow; equal as long as there is no trouble) is closed under sequencing, and is proved for a line of a section, a round of the loop, the loop and nested files by induction |
| C69 | `Load`, `Parser` | UTF-8 is the one of Lean's library, whose round trip theorem gives that the decoding is the inverse of the encoding; case analysis on the outcomes of the system calls |
| C70 | `Tools`, `Load`, `Handler`, `Parser` | case analysis; that writing cannot fail because every handler's version has a name is checked on the table of handlers; the last part is C54 for the file that C69 reads back |
| C71 | `Tools`, `Parser`, `Packages` | induction on the typed lines; `.show` changes nothing because writing sorts the packages idempotently (C23) |
| C72 | `Commands/*`, `Handler`, `Parser`, `Tools` | a relational program logic (two runs of `parse` on objects that differ only in line numbers end in such objects, with values that differ only so), applied to the `parse` program, `__eq__` and `__str__` of every class that a map gives; lifted to handlers, and by induction on the parts of a file to files. It replaces the hypothesis `LineFree` of C34, which handlers with data lists do not meet |
| C73 | `Commands/*`, `Argparse`, `Shlex`, `Handler` | the sheets of C61, with the values without options in a table by version (`*Bases`) and the attributes that must have a value (`needs`) or none (`unread`: team slaves are written as JSON, of which nothing is claimed). That the option parser accepts the written line and gives back every attribute: `normal_obj` from the soundness of C61's check and of a second one (`normalCheck`); that `parse` then accepts and makes the same object: a relational logic for two runs on lines that the option parser treats alike (`M.Sim`), applied to every `parse` program; `preexist` of logical volumes and the boot protocol with `--noipv4`, which `parse` computes, by cases. Left out: driverdisk, sshpw and sshkey, whose words come after the options. False without the conditions: `C73_empty_name`, `C73_rivals`, and the `C61_*_lost` |
| C74 | `Commands/*`, `Handler` | induction on the list with C73's lemma; that lines of a command do not mark the commands that exclude it; that the texts of objects that are alike are the same (templates do not mention the line number) |
| C75 | `Handler`, `BaseHandler`, `Commands/*` | specification `StableText` (a decidable property of one command's text, in a new handler that reads nothing else) and `OwnLine`; invariant `SameAt` (two handlers of one version whose objects for a command have the same text and whose rivals are unread, up to line numbers), kept by lines of the command itself and by lines of any other object (`sameAt_run`); what a new handler writes without a line is stable for every class in every version (`new_stable`, by evaluating each class, not handlers); the file level from C54; for commands with data lists, C74 and the shape of the text, a comment and a line for each object (`Command.Framed`, a check of every template), give `C75_lists`. Findings: FC3_Lilo inherits `__str__` from FC3_Bootloader and writes a second `bootloader` line (`C75_lilo`); `parse` marks a command seen before it refuses the line (`C75_refused_is_written`) |
| C76 | `Commands/*`, `Argparse`, `Shlex`, `Handler` | the sheets of C62, with the values without options in a table by version (`*KeepBases`, checked against the classes), needed and fixed attributes (`keepNeeds`, `keepFixed`); the option parser on the words of the text gives the values of the settings (`plain_opts`, from C73's machinery); simulation `M.Sims`: a `parse` body run on two namespaces that agree on everything but unwritten defaults, in handlers whose rivals are unread, accepts if it accepted before and leaves the same state. The boot loader's `--md5pass` is renamed by `parse` before it is stored, so there the theorem is about settings without an encrypted password. Stability (C75) from the shape of the text; the file level combines C74, C75 and this. Findings: `C76_two_lines`, `C76_refused` |
| C77 | `Commands/*`, `Handler` | `Out.gives` lists the texts of a template without values by going through the sets of elementary conditions that may hold, and `Out.gives_sound` shows that every state gives one of them, so no invariant of the states is needed; the classes come from the session invariant; stability of each listed text by computation at the class level (`stable_of_class`). `displaymode` from F26 is not in the table: see the finding `C77_refused` |
| C78 | `Commands/{Lang,Keyboard,Rootpw,Timezone}`, `Handler` | per class: a lemma for the text as a function of the settings (only truth values and texts of the attributes matter, so no invariant of the session is needed), shell splitting of a line of bare, single-quoted and double-quoted words (`shlex_line`), the namespace that argparse gives for a word before or after options (`front_word`, `back_words`), and a run of `parse` on a new object (`plain_stable`), which gives the text and the settings that are read back (`ReadBack`). The order of a Python set is not modelled, so F18 to F22 are limited to one NTP server. Findings: `C78_two_words`, `C78_old_format`, `C78_password`, `C78_switch` |
| C79 | `VerDiff`, `Commands/OpTable`, `Handler` | `commandMaps_listed`: in every map, a class that the table has as removed is `removedCmd` and one it has as deprecated is `deprecatedCmd`; with the invariant of sessions (the object that serves a name is of the class of the map) each list gets its meaning for all sessions. `classOps_built`: every parser in the table is made by `add_argument` and `remove_argument` alone, so that C13 applies to each option that is kept or offered. Not modelled: the text of the message for a version that is not supported, the command line of the program, and `readline`, whose line and positions are parameters. The lists of the model for F23 to F25, F10 to F11 and F10 to F14, and the candidates for `part ` and `auth`, are those that `tests/tools/ksverdiff.py` and `tests/tools/ksshell.py` expect (compared by evaluation, not by a theorem). Cases and findings: `C79_case`, `C79_back_again`, `C79_deprecated_again`, `C79_method`, `C79_offers_removed` |
| C80 | `Commands/Authconfig`, `Commands/Authselect`, `Commands/Realm`, `Shlex`, `Handler` | `raw_stable` (as `line_stable` of C78, but for a command that looks at its line, and for a name that differs from the one written): a new object that reads the one line of the text writes the same text. For `auth` and `authselect` the rest of the line, stripped, is the value again. For `realm`, `RealmInv` (nothing joined, or arguments that `getopt` accepts with one realm, and the three attributes made from them) is an invariant of the class in the sense of `Command.Ok`, so it holds in every session; by C08 the quoted arguments are split into the same arguments, once by the parser and once by the command itself. Asked: the text kept has no line breaks, and for `auth` and `authselect` it is not empty, has no blanks at the ends and can be split into words. Cases and findings: `rawFile_text`, `rawFile_attrs`, `rawFile_settings`, `rawFile_rest`, `C80_leading_blank` |
| C81 | `Commands/Authconfig`, `Commands/Authselect`, `Commands/Realm`, `Shlex`, `Handler` | `object_dispatch` (from `dispatch_eq` and the invariant of sessions) reduces a line to `parse` of the class; `realmArgs_eq` and `parseJoin_eq` split all ways through `realm`. `tail_newline`: by induction on the text, for every state of the tokenizer, a text that can be split with ordinary blanks at its end can be split with a newline at its end; so a setting made by a line that the parser has split meets the conditions of C80 (`C81_auth_restored`). Asked there: the blanks around the text are those of `shlex` (the blanks that `strip` removes are more). Cases and findings: `C81_cases`, `C81_realm_case`, `C81_realm_twice` |
| C82 | `Commands/Iscsiname`, `Commands/Updates`, `Commands/Displaymode`, `Handler` | `bare_stable`: a text of one line without a comment is stable if a new object reads the line and writes the same text. `iscsiname` and `updates`: by the theorems on words in the argument parser (`known_front`) a plain word is read as the one argument. Display modes: `Out.gives_sound` bounds the texts of the class for all attributes, and each is read by evaluation; for a line in any session `mode_parse` splits the ways through `parse`, for every result of the argument parser. `C82_file` joins this to C80. Asked: the word is plain, and the text is not one of two that can only be left by a refused line (`C82_mode_line` excludes them after a line that is accepted). Cases and findings: `C82_cases`, `C82_cmdline`, `C82_mode_case`, `smallFile_text` |
| C83 | `Commands/Sshkey`, `Commands/Sshpw`, `Argparse`, `Shlex`, `Handler` | `lines_run`, `list_back`: by induction on the list, if each object is written as one line of words of which `parse` makes an object with the same text and in the relation `R`, the whole text is stable and the new list is related object by object. For each class: the words of the line (`sshkey` with one quoted word, `sshpw` with any number of bare words, joined by blanks), the argument parser with options before the words (`known_back`, `star_values`, `star_count`), and the way through `parse`. Asked: the user name is not empty and needs no quotes; a key has no double quotation mark, backslash or line break and does not begin with a minus; a password is plain words with one blank between. Not restored: the flags for a password next to `--sshkey`. Cases and findings: `C83_case`, `C83_lost` |
| C84 | `Commands/Snapshot`, `Argparse`, `Shlex`, `Handler` | `lines_fresh`, `list_fresh`: the induction of C83 for a `parse` that looks at the list; asked is a relation `S` between each object and those after it that is kept when the earlier one is read again. That the lines are accepted needs no condition of its own: the origin of two parts and the different names are the invariants of C60. Asked: the origin is a plain word, the name needs no quotes, and the time is one of the two values of the table. `strip` at the end of `__str__` changes nothing because the line ends with a letter. Cases and findings: `C84_case`, `C84_lost` |
| C85 | `Commands/Nvdimm`, `Argparse`, `Shlex`, `Handler` | `wrapped_back`: C83's `list_back` for a list that is written between a comment and a blank line (`runClass_end`, `runClass_str`). What a line says is a type of its own (`Nv`: use a namespace, use block devices, reconfigure a namespace with a sector size); the words of each are read by `known_front`, a list of devices by `comma_plain`, a sector size by `tyInt_intStr`. That the sector size is not 0 follows from C60. Asked: the namespace needs no quotes, and the devices need none and contain no comma. Not restored: a sector size next to `use`. Cases and findings: `C85_case`, `C85_lost` |

## Axioms

<!-- axioms begin -->
* none: `C79_empty_line`
* `propext`: `C06_case`, `C06_false_iff`, `C06_true_iff`, `C10_converters`, `C29_lossless`, `C37_rule`, `C43_temp`, `C44_unreadable_input`, `C47_unknown`, `C48_masked`, `C48_unknown`, `C49_listed`, `C49_masked`, `C49_unknown`, `C81_realm_case`, `Version.C03_default`, `Version.C03_unreadable`, `Version.C04_accepted_name_refused`, `Version.C04_decimal`
* `Classical.choice`, `Quot.sound`, `propext`: `C07_canonical`, `C07_idempotent`, `C08_plain_word`, `C08_quote_roundtrip`, `C08_words`, `C09_only_comment`, `C09_trailing_comment`, `C10_parse_args_error`, `C10_parse_known_error`, `C11_append_in_order`, `C11_extend_in_order`, `C11_store_last_wins`, `C12_distinct_destinations`, `C12_option_order`, `C13_ambiguous_rejected`, `C13_exact`, `C13_unique_abbreviation`, `C13_unknown_rejected`, `C13_unknown_with_blank_is_word`, `C14_required_given`, `C14_required_missing`, `C15_removed_rejected`, `C16_known_keys`, `C16_namespace_keys`, `C16_set_to_obj`, `C17_last_mention`, `C17_section_lines`, `C18_sorted`, `C19_group_line`, `C20_environment`, `C20_environment_batch`, `C21_order_irrelevant`, `C22_roundtrip_partial`, `C23_idempotent`, `C24_scripts_verbatim`, `C25_script_attributes`, `C25_script_of_section`, `C26_script_roundtrip`, `C27_blank_scripts`, `C27_leak`, `C28_dispatch`, `C30_tolerant`, `C31_fatal`, `C32_before_F8`, `C32_unclosed_eof`, `C32_unclosed_tag`, `C33_line_numbers`, `C34_include_is_paste`, `C35_include_in_script`, `C35_include_is_blank`, `C36_fatal`, `C36_skipped`, `C38_cyclic`, `C39_commands`, `C40_kept_for_output`, `C40_no_effect`, `C40_unknown_fatal`, `C40_unknown_kept`, `C41_merged`, `C41_roundtrip_partial`, `C42_escapes_partial`, `C42_handlers_escape_partial`, `C42_handlers_only_kickstart_errors_partial`, `C42_only_kickstart_errors_partial`, `C45_every_name`, `C45_objects`, `C45_shared`, `C46_once_in_order`, `C46_order_independent`, `C47_alias_stale`, `C47_fresh`, `C47_same_place`, `C48_known`, `C48_seen`, `C50_kept`, `C50_names`, `C50_updated`, `C52_layout`, `C52_version`, `C53_line_identified`, `C54_file_roundtrip`, `C55_errors`, `C55_parse_errors`, `C56_exclusive`, `C56_parse_error`, `C56_refused`, `C57_commute`, `C57_reorder`, `C58_accepted`, `C58_lines`, `C58_other`, `C58_refused`, `C59_deprecated`, `C59_left_out`, `C59_left_out_accepted`, `C59_removed`, `C60_btrfs`, `C60_driverdisk`, `C60_logvol`, `C60_mount`, `C60_network`, `C60_nvdimm`, `C60_part`, `C60_raid`, `C60_repo`, `C60_snapshot`, `C60_snapshot_names`, `C60_timesource`, `C60_volgroup`, `C61_read_back`, `C62_read_back`, `C63_text`, `C63_unread`, `C64_first`, `C64_rules`, `C65_base`, `C65_line`, `C65_refused`, `C66_text`, `C67_attr`, `C67_method`, `C67_set`, `C67_set_attr`, `C67_set_none`, `C67_set_unknown`, `C68_count`, `C68_status_wraps`, `C68_text_only`, `C68_valid`, `C69_file_errors`, `C69_file_text`, `C69_not_utf8_escapes`, `C69_to_file`, `C69_to_file_fails`, `C69_url`, `C70_nothing`, `C70_raises`, `C70_returns_zero`, `C70_stands_alone`, `C70_written`, `C71_commands`, `C71_crash`, `C71_ends`, `C71_show`, `C72_dispatch`, `C72_files`, `C72_flatten`, `C72_include`, `C72_layout`, `C72_written`, `C73_text_accepted`, `C74_list_restored`, `C75_file`, `C75_lists`, `C75_lists_file`, `C75_stable`, `C76_file`, `C76_one_line`, `C76_self_accepted`, `C76_stable`, `C77_file`, `C77_stable`, `C77_texts`, `C78_file`, `C78_restores`, `C79_added`, `C79_all_options`, `C79_deprecated`, `C79_first_word`, `C79_kept`, `C79_later_word`, `C79_offers_removed`, `C79_removed`, `C79_same`, `C79_sorted`, `C80_file`, `C80_restores`, `C81_auth`, `C81_auth_restored`, `C81_realm`, `C82_file`, `C82_mode_line`, `C82_modes`, `C82_word`, `C83_file`, `C83_restores`, `C84_file`, `C84_restores`, `C85_file`, `C85_restores`, `Version.C04_name`, `Version.C04_name_only_partial`
* `Quot.sound`, `propext`: `C05_elements_clean`, `C05_join_split`, `C05_roundtrip`, `C07_relative`, `C10_table`, `C13_unknown_with_blank_accepted`, `C15_alias_survives`, `C15_removed_prefix_becomes_abbreviation`, `C19_exclusion`, `C19_first_mode_stays`, `C19_names_unique`, `C21_batch`, `C21_both`, `C22_environment_lost`, `C22_group_lost`, `C23_empty_iff`, `C23_same_selection`, `C29_crlf`, `C29_lines`, `C34_swallowed`, `C35_independent`, `C35_independent_file`, `C37_include_resolution`, `C37_include_resolution_text`, `C38_swallowed`, `C39_reset`, `C41_lines_spread`, `C41_sections_merged`, `C42_empty_word_escapes`, `C42_lone_dash_escapes`, `C42_open_quote_escapes`, `C43_exact`, `C43_file`, `C43_replaced`, `C43_runs_together`, `C43_unchanged`, `C44_first_failure`, `C44_kickstart_error`, `C49_nothing_written`, `C51_command`, `C51_data`, `C51_removed`, `C53_bare`, `C53_old_convention`, `C53_with_line`, `C55_method_raises`, `C55_mount_raises`, `C55_multipath_raises`, `C55_nvdimm_raises`, `C55_raid_raises`, `C55_realm_raises`, `C56_after_reset`, `C56_one_way`, `C57_not_all`, `C58_multipath`, `C59_lifecycle`, `C61_blank_split`, `C61_gid_lost`, `C61_inodes_lost`, `C61_passphrase_lost`, `C62_clearpart_lost`, `C62_disabled_lost`, `C62_level_lost`, `C62_passphrase_lost`, `C62_vnc_port_lost`, `C63_refused_is_read`, `C64_refused_line`, `C64_second_line`, `C68_empty`, `C68_messages`, `C68_status`, `C71_clear`, `C71_clear_loses_sections`, `C71_errors`, `C71_quit`, `C72_differ`, `C73_empty_name`, `C73_rivals`, `C75_lilo`, `C75_refused_is_written`, `C75_two_lines`, `C76_refused`, `C76_two_lines`, `C77_refused`, `C78_old_format`, `C78_password`, `C78_switch`, `C78_two_words`, `C79_back`, `C79_back_again`, `C79_case`, `C79_codes`, `C79_deprecated_again`, `C79_method`, `C79_options`, `C79_states`, `C80_leading_blank`, `C81_cases`, `C81_realm_twice`, `C82_cases`, `C82_cmdline`, `C82_mode_case`, `C83_case`, `C83_lost`, `C84_case`, `C84_lost`, `C85_case`, `C85_lost`, `Version.C01_names_distinct`, `Version.C01_string_roundtrip`, `Version.C01_supported_iff`, `Version.C01_versionToString_releases`, `Version.C02_accepts_iff`, `Version.C02_rejects`, `Version.C03_first_line`, `Version.C04_int`, `Version.C04_int_refused`
<!-- axioms end -->
