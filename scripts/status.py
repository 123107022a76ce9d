PARTIAL = {
 "C04": "The clause 'accepted by stringToVersion implies accepted by makeVersion' is false (DEVEL and the long names): C04_accepted_name_refused proves the negation, C04_name_only_partial what holds instead. The other clauses are proved in full.",
 "C42": "False as stated: C42_empty_word_escapes, C42_open_quote_escapes and C42_lone_dash_escapes prove the negation. The _partial theorems prove which exceptions can escape in general, and that only KickstartError (and RecursionError) escapes when every line can be split and has a first word. C42_handlers_* say the same of the handlers of pykickstart, without an assumption on their commands. Loading files is assumed to raise only KickstartErrors.",
 "C22": "False as stated: C22_environment_lost (--default with an environment) and C22_group_lost (a group excluded, then selected) prove the negation. C22_roundtrip_partial proves the round trip, up to the sorting of the group lists, for selections that contain no such contradiction and whose names can be written on a line of their own.",
 "C41": "False as stated: C41_lines_spread and C41_sections_merged prove the negation. C41_merged proves exactly what any list of such sections becomes, C41_roundtrip_partial that a single section without lines survives.",
}
NA = {}
NOTES = {
}
