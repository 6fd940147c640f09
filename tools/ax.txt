Ntcip.C01_split_lossless	[propext, Classical.choice, Quot.sound]
Ntcip.C01_slices_is_iteration	[propext, Classical.choice, Quot.sound]
Ntcip.C02_split_cuts_on_tag_boundaries	[propext, Classical.choice, Quot.sound]
Ntcip.C02_split_unique	[propext, Classical.choice, Quot.sound]
Ntcip.C02_no_adjacent_spans	[propext, Classical.choice, Quot.sound]
Ntcip.C03_item_panics_iff	[propext, Classical.choice, Quot.sound]
Ntcip.C03_panics_iff	[propext, Classical.choice, Quot.sound]
Ntcip.C03_no_panic_partial	[propext, Classical.choice, Quot.sound]
Ntcip.C03_ascii	[propext, Quot.sound]
Ntcip.C03_false	[propext]
Ntcip.C04_in_range	[propext, Classical.choice, Quot.sound]
Ntcip.C04_values_in_range	[propext, Classical.choice, Quot.sound]
Ntcip.C05_case_insensitive	[propext, Classical.choice, Quot.sound]
Ntcip.C06_roundtrip_partial	[propext, Classical.choice, Quot.sound]
Ntcip.C06_hex_partial	[propext, Classical.choice, Quot.sound]
Ntcip.C06_false	[propext]
Ntcip.C07_idempotent_partial	[propext, Classical.choice, Quot.sound]
Ntcip.C07_false	[propext]
Ntcip.C07_iff	[propext, Classical.choice, Quot.sound]
Ntcip.C08_well_formed_partial	[propext, Classical.choice, Quot.sound]
Ntcip.C08_false	[propext]
Ntcip.C08_iff	[propext, Classical.choice, Quot.sound]
Ntcip.C09_text_kept	[propext, Classical.choice, Quot.sound]
Ntcip.C09_separator_false	[propext]
Ntcip.C10_no_redundant	[propext, Classical.choice, Quot.sound]
Ntcip.C10_effect	[propext, Classical.choice, Quot.sound]
Ntcip.C10_effect_hex_partial	[propext, Classical.choice, Quot.sound]
Ntcip.C11_empty_iff	[propext, Classical.choice, Quot.sound]
Ntcip.C11_last_visible	[propext, Classical.choice, Quot.sound]
Ntcip.C11_kept	[propext, Classical.choice, Quot.sound]
Ntcip.C11_kept_hex_partial	[propext, Classical.choice, Quot.sound]
Ntcip.C11_false	[propext]
Ntcip.C12_blank_iff	[propext, Classical.choice, Quot.sound]
Ntcip.C12_normalize	[propext, Classical.choice, Quot.sound]
Ntcip.C13_escape	[propext, Classical.choice, Quot.sound]
Ntcip.C14_exact	[propext, Classical.choice, Quot.sound]
Ntcip.C14_tag_ignored	[propext, Classical.choice, Quot.sound]
Ntcip.C15_interpolation_partial	[propext, Quot.sound]
Ntcip.C15_between	[propext, Classical.choice, Quot.sound]
Ntcip.C15_level0_iff	[propext, Classical.choice, Quot.sound]
Ntcip.C15_inverted	[propext, Classical.choice, Quot.sound]
Ntcip.C15_false	[]
Ntcip.C15_rgb_monochrome_8	[propext, Quot.sound]
Ntcip.C16_rgb_iff	[propext, Quot.sound]
Ntcip.C16_set_foreground	[propext, Quot.sound]
Ntcip.C16_set_background	[propext, Quot.sound]
Ntcip.C16_rgb_value	[propext, Quot.sound]
Ntcip.C16_message	[propext, Classical.choice, Quot.sound]
Ntcip.C16_no_page	[propext, Classical.choice, Quot.sound]
Ntcip.C16_reported	[propext, Classical.choice, Quot.sound]
Ntcip.C17_values	[propext]
Ntcip.C17_from_u8_range	[]
Ntcip.C17_round_trip	[]
Ntcip.C17_injective	[]
Ntcip.C18_checked_accepts_iff	[propext, Classical.choice, Quot.sound]
Ntcip.C18_validate_partial	[propext, Classical.choice, Quot.sound]
Ntcip.C18_checked_panics_iff	[propext, Classical.choice, Quot.sound]
Ntcip.C18_checked_panics	[]
Ntcip.C18_wrapping_iff	[propext, Classical.choice, Quot.sound]
Ntcip.C18_wrapping_no_panic	[propext, Quot.sound]
Ntcip.C18_wrapping_false	[]
Ntcip.C19_multi_cfg_validate	[propext, Classical.choice, Quot.sound]
Ntcip.C20_error_iff	[propext, Classical.choice, Quot.sound]
Ntcip.C20_panics_iff	[propext, Classical.choice, Quot.sound]
Ntcip.C20_accepts_iff	[propext, Classical.choice, Quot.sound]
Ntcip.C20_no_panic_partial	[propext, Classical.choice, Quot.sound]
Ntcip.C20_false	[]
Ntcip.C21_error_iff	[propext, Classical.choice, Quot.sound]
Ntcip.C21_accepts_iff	[propext, Classical.choice, Quot.sound]
Ntcip.C21_graphic_iff	[propext, Classical.choice, Quot.sound]
Ntcip.C22_built_sign_valid	[propext, Classical.choice, Quot.sound]
Ntcip.C22_build_succeeds_iff	[propext, Classical.choice, Quot.sound]
Ntcip.C23_rebuild	[propext, Quot.sound]
Ntcip.C23_graphic_lookup	[propext, Classical.choice, Quot.sound]
Ntcip.C23_font_lookup	[propext, Classical.choice, Quot.sound]
Ntcip.C24_font_lookup	[propext, Classical.choice, Quot.sound]
Ntcip.C24_graphic_lookup	[propext, Classical.choice, Quot.sound]
Ntcip.C24_font_update	[propext, Classical.choice, Quot.sound]
Ntcip.C24_graphic_update	[propext, Classical.choice, Quot.sound]
Ntcip.C24_font_room	[propext, Classical.choice, Quot.sound]
Ntcip.C24_font_insertions	[propext, Classical.choice, Quot.sound]
Ntcip.C24_graphic_insertions	[propext, Classical.choice, Quot.sound]
Ntcip.C25_monotone	[propext, Classical.choice, Quot.sound]
Ntcip.C25_position_partial	[propext, Classical.choice, Quot.sound]
Ntcip.C25_inside_partial	[propext, Classical.choice, Quot.sound]
Ntcip.C25_strict_partial	[propext, Classical.choice, Quot.sound]
Ntcip.C25_centred_partial	[propext, Classical.choice, Quot.sound]
Ntcip.C25_false	[propext, Classical.choice, Quot.sound]
Ntcip.C26_rect_lines_partial	[propext, Classical.choice, Quot.sound]
Ntcip.C26_endless_iff	[propext, Classical.choice, Quot.sound]
Ntcip.C26_spec_unique	[propext, Quot.sound]
Ntcip.C26_false	[propext]
Ntcip.C27_ok_iff	[propext, Classical.choice, Quot.sound]
Ntcip.C27_err_iff	[propext, Classical.choice, Quot.sound]
Ntcip.C27_total_partial	[propext, Classical.choice, Quot.sound]
Ntcip.C27_panics_iff	[propext, Classical.choice, Quot.sound]
Ntcip.C27_false	[]
Ntcip.C27_character_iff	[propext, Classical.choice, Quot.sound]
Ntcip.C27_nul_defined	[]
Ntcip.C28_glyph_drawing	[propext, Classical.choice, Quot.sound]
Ntcip.C28_is_pixel_lit	[propext, Classical.choice, Quot.sound]
Ntcip.C28_inside_box	[propext, Classical.choice, Quot.sound]
Ntcip.C28_valid_fonts	[propext, Classical.choice, Quot.sound]
Ntcip.C29_iff	[propext, Quot.sound]
Ntcip.C29_unused	[propext, Quot.sound]
Ntcip.C29_width_sound	[propext, Quot.sound]
Ntcip.C29_width_partial	[propext, Quot.sound]
Ntcip.C29_false	[propext, Classical.choice, Quot.sound]
Ntcip.C30_font_version_id	[propext, Classical.choice, Quot.sound]
Ntcip.C30_graphic_version_id	[propext, Quot.sound]
Ntcip.C31_graphic_burst	[propext, Quot.sound]
Ntcip.C31_graphic_byte	[propext, Quot.sound]
Ntcip.C31_font_burst	[propext, Classical.choice, Quot.sound]
Ntcip.C31_font_byte	[propext, Classical.choice, Quot.sound]
Ntcip.C32_font_bytes	[propext, Classical.choice, Quot.sound]
Ntcip.C32_graphic_bytes	[propext, Quot.sound]
Ntcip.C32_font_bytes_iff	[propext, Classical.choice, Quot.sound]
Ntcip.C33_length_decodes	[propext, Classical.choice, Quot.sound]
Ntcip.C33_uint_decodes	[propext, Classical.choice, Quot.sound]
Ntcip.C33_length_shortest	[propext, Classical.choice, Quot.sound]
Ntcip.C33_uint_shortest	[propext, Classical.choice, Quot.sound]
Ntcip.C34_empty	[propext, Classical.choice, Quot.sound]
Ntcip.C34_round_trip_iff	[propext, Classical.choice, Quot.sound]
Ntcip.C34_write_iff	[propext, Classical.choice, Quot.sound]
Ntcip.C34_round_trip_partial	[propext, Classical.choice, Quot.sound]
Ntcip.C34_false	[propext, Classical.choice, Quot.sound]
Ntcip.C35_panic_iff	[propext, Classical.choice, Quot.sound]
Ntcip.C35_ok_iff	[propext, Classical.choice, Quot.sound]
Ntcip.C35_no_panic_partial	[propext, Quot.sound]
Ntcip.C35_false	[propext, Classical.choice, Quot.sound]
Ntcip.C36_decoding_partial	[propext, Classical.choice, Quot.sound]
Ntcip.C36_no_panic	[propext, Classical.choice, Quot.sound]
Ntcip.C36_false	[propext, Quot.sound]
Ntcip.C36_exact	[propext, Classical.choice, Quot.sound]
Ntcip.C36_level_iff	[propext]
Ntcip.C37_too_big_iff	[propext, Quot.sound]
Ntcip.C37_placement	[propext, Classical.choice, Quot.sound]
Ntcip.C38_default_colors_partial	[propext, Classical.choice, Quot.sound]
Ntcip.C38_invisible	[propext, Classical.choice, Quot.sound]
Ntcip.C38_false	[propext]
Ntcip.C39_exact	[propext, Classical.choice, Quot.sound]
Ntcip.C39_on_page_size_partial	[propext, Classical.choice, Quot.sound]
Ntcip.C39_no_tr_partial	[propext, Classical.choice, Quot.sound]
Ntcip.C39_off_page_false	[propext, Quot.sound]
Ntcip.C40_page_times	[propext, Classical.choice, Quot.sound]
Ntcip.C41_page_count	[propext, Classical.choice, Quot.sound]
Ntcip.C41_ends	[propext, Classical.choice, Quot.sound]
Ntcip.C42_rejected	[propext, Quot.sound]
Ntcip.C42_message	[propext, Classical.choice, Quot.sound]
Ntcip.C42_tag_name	[propext]
Ntcip.C42_no_tag	[propext]
Ntcip.C43_boxes	[propext, Classical.choice, Quot.sound]
Ntcip.C43_inside_iff	[propext, Classical.choice, Quot.sound]
Ntcip.C43_text_inside	[propext, Classical.choice, Quot.sound]
Ntcip.C43_rectangle_inside	[propext, Classical.choice, Quot.sound]
Ntcip.C43_text_partial	[propext, Classical.choice, Quot.sound]
Ntcip.C43_false	[propext, Quot.sound]
Ntcip.C44_no_panic_partial	[propext, Classical.choice, Quot.sound]
Ntcip.C44_built_partial	[propext, Classical.choice, Quot.sound]
Ntcip.C44_false	[propext, Quot.sound]
Ntcip.C45_exact	[propext, Classical.choice, Quot.sound]
Ntcip.C45_fits_partial	[propext, Classical.choice, Quot.sound]
Ntcip.C45_too_big_partial	[propext, Classical.choice, Quot.sound]
Ntcip.C45_drawn	[propext, Classical.choice, Quot.sound]
Ntcip.C45_false	[propext, Quot.sound]
Ntcip.C46_horizontal	[propext, Classical.choice, Quot.sound]
Ntcip.C46_vertical	[propext, Classical.choice, Quot.sound]
Ntcip.C47_adjacent	[propext, Quot.sound]
Ntcip.C47_rejected	[propext, Quot.sound]
Ntcip.C47_page	[propext, Quot.sound]
Ntcip.C47_line_partial	[propext, Quot.sound]
Ntcip.C47_only_those	[propext, Quot.sound]
Ntcip.C47_false	[propext, Quot.sound]
Ntcip.C48_accepted_partial	[propext, Classical.choice, Quot.sound]
Ntcip.C48_overflow	[propext, Quot.sound]
Ntcip.C48_false	[propext, Quot.sound]
Ntcip.C49_fill_partial	[propext, Classical.choice, Quot.sound]
Ntcip.C49_tag	[propext, Quot.sound]
Ntcip.C49_false	[propext, Quot.sound]
Ntcip.C50_ends_iff	[propext, Classical.choice, Quot.sound]
Ntcip.C50_forever	[propext, Classical.choice, Quot.sound]
Ntcip.C50_shown_ends_partial	[propext, Classical.choice, Quot.sound]
Ntcip.C50_dichotomy	[propext, Classical.choice, Quot.sound]
Ntcip.C50_text_ends_partial	[propext, Classical.choice, Quot.sound]
Ntcip.C50_after_error	[propext, Quot.sound]
Ntcip.C50_ends_partial	[propext, Classical.choice, Quot.sound]
Ntcip.C50_error_forever	[propext, Quot.sound]
Ntcip.C50_false	[propext, Quot.sound]
Ntcip.C51_rejected	[propext, Classical.choice, Quot.sound]
Ntcip.C51_accepted	[propext, Quot.sound]
Ntcip.C51_message	[propext, Quot.sound]
Ntcip.C52_two_colors	[propext, Classical.choice, Quot.sound]
Ntcip.C53_carry	[propext, Classical.choice, Quot.sound]
Ntcip.C53_reset	[propext, Quot.sound]
Ntcip.C54_lines_count	[propext, Quot.sound]
Ntcip.C55_ok_iff	[propext, Classical.choice, Quot.sound]
Ntcip.C55_widths_partial	[propext, Classical.choice, Quot.sound]
Ntcip.C55_total_partial	[propext, Classical.choice, Quot.sound]
Ntcip.C55_false	[propext]
Ntcip.C56_round_trip_partial	[propext, Classical.choice, Quot.sound]
Ntcip.C56_fonts_partial	[propext, Classical.choice, Quot.sound]
Ntcip.C56_false	[propext]
Ntcip.C56_hc_false	[propext]
Ntcip.C57_exact	[propext, Classical.choice, Quot.sound]
Ntcip.C57_kept_partial	[propext, Classical.choice, Quot.sound]
Ntcip.C57_fonts_partial	[propext, Classical.choice, Quot.sound]
Ntcip.C57_canonical_partial	[propext, Classical.choice, Quot.sound]
Ntcip.C57_false	[propext]
Ntcip.C58_invalid	[propext, Classical.choice, Quot.sound]
Ntcip.C58_nonempty_partial	[propext, Classical.choice, Quot.sound]
Ntcip.C58_false	[propext]
Ntcip.C59_filled	[propext, Classical.choice, Quot.sound]
Ntcip.C59_capacity	[propext, Classical.choice, Quot.sound]
Ntcip.C60_fill_false	[propext, Classical.choice, Quot.sound]
Ntcip.C60_blank_false	[propext, Classical.choice, Quot.sound]
Ntcip.C60_widths_partial	[propext, Classical.choice, Quot.sound]
Ntcip.C61_span_partial	[propext, Classical.choice, Quot.sound]
Ntcip.C61_false	[propext]
Ntcip.C62_side_by_side_partial	[propext, Classical.choice, Quot.sound]
Ntcip.C62_false	[propext, Quot.sound]
Ntcip.C63_stacked_partial	[propext, Classical.choice, Quot.sound]
Ntcip.C63_false	[propext, Quot.sound]
Ntcip.C64_drawn_once	[propext, Classical.choice, Quot.sound]
Ntcip.C64_places	[propext, Classical.choice, Quot.sound]
Ntcip.C64_tidy	[propext, Classical.choice, Quot.sound]
Ntcip.C64_pieces	[propext, Classical.choice, Quot.sound]
Ntcip.C65_version_ids	[propext, Classical.choice, Quot.sound]
Ntcip.C66_page	[propext, Classical.choice, Quot.sound]
Ntcip.C66_graphics	[propext, Classical.choice, Quot.sound]
Ntcip.C67_page_iff	[propext, Classical.choice, Quot.sound]
Ntcip.C67_message_iff	[propext, Classical.choice, Quot.sound]
Ntcip.C68_intersection_partial	[propext, Classical.choice, Quot.sound]
Ntcip.C68_contains_partial	[propext, Classical.choice, Quot.sound]
Ntcip.C68_intersection_panics_iff	[propext, Classical.choice, Quot.sound]
Ntcip.C68_contains_panics_iff	[propext, Classical.choice, Quot.sound]
Ntcip.C68_false	[propext, Quot.sound]
Ntcip.C69_offsets	[propext, Classical.choice, Quot.sound]
Ntcip.C69_end	[propext, Classical.choice, Quot.sound]
Ntcip.C70_parse	[propext, Quot.sound]
Ntcip.C70_name	[propext, Quot.sound]
Ntcip.C70_heights	[propext, Quot.sound]
Ntcip.C70_valid	[propext, Classical.choice, Quot.sound]
Ntcip.C71_tidy_partial	[propext, Classical.choice, Quot.sound]
Ntcip.C71_pages_partial	[propext, Classical.choice, Quot.sound]
Ntcip.C71_false	[propext, Quot.sound]
Ntcip.C71_joined_false	[propext, Quot.sound]
Ntcip.C72_shown_partial	[propext, Classical.choice, Quot.sound]
Ntcip.C72_false	[propext, Classical.choice, Quot.sound]
Ntcip.C73_writes_partial	[propext, Quot.sound]
Ntcip.C73_file_partial	[propext, Quot.sound]
Ntcip.C73_pixels_partial	[propext, Quot.sound]
Ntcip.C73_outside	[propext, Quot.sound]
Ntcip.C73_size_iff	[propext, Quot.sound]
Ntcip.C73_false	[propext]
Ntcip.C73_overflow	[propext, Classical.choice, Quot.sound]
Ntcip.C74_unused	[propext, Classical.choice, Quot.sound]
Ntcip.C74_order	[propext, Classical.choice, Quot.sound]
Ntcip.C74_store_font	[propext, Classical.choice, Quot.sound]
Ntcip.C74_settings	[propext, Quot.sound]
Ntcip.C74_more_tags	[propext, Classical.choice, Quot.sound]
Ntcip.C74_pattern	[propext, Classical.choice, Quot.sound]
Ntcip.C75_steps	[propext, Classical.choice, Quot.sound]
Ntcip.C75_larger	[propext, Classical.choice, Quot.sound]
Ntcip.C75_cells	[propext, Quot.sound]
Ntcip.C75_limit	[propext, Quot.sound]
Ntcip.C76_text	[propext, Classical.choice, Quot.sound]
Ntcip.C76_scheme	[propext, Classical.choice, Quot.sound]
Ntcip.C76_monochrome	[propext, Classical.choice, Quot.sound]
Ntcip.C76_tags	[propext, Quot.sound]
Ntcip.C77_steps_partial	[propext, Classical.choice, Quot.sound]
Ntcip.C77_moved_partial	[propext, Classical.choice, Quot.sound]
Ntcip.C77_false	[propext, Quot.sound]
Ntcip.C77_sizes	[propext, Quot.sound]
Ntcip.C78_pages	[propext, Quot.sound]
Ntcip.C78_yields	[propext, Quot.sound]
Ntcip.C78_patterns	[propext, Classical.choice, Quot.sound]
Ntcip.C78_spelling	[propext, Classical.choice, Quot.sound]
Ntcip.C78_case	[propext, Classical.choice, Quot.sound]
Ntcip.C79_earlier	[propext, Classical.choice, Quot.sound]
Ntcip.C79_appended	[propext, Classical.choice, Quot.sound]
Ntcip.C79_joined	[propext, Classical.choice, Quot.sound]
Ntcip.C80_blank	[propext, Classical.choice, Quot.sound]
Ntcip.C81_pictures	[propext, Classical.choice, Quot.sound]
Ntcip.C81_accepted_iff	[propext, Classical.choice, Quot.sound]
Ntcip.C81_one_picture	[propext, Classical.choice, Quot.sound]
Ntcip.C81_same_look	[propext, Classical.choice, Quot.sound]
Ntcip.C81_rewritten	[propext, Classical.choice, Quot.sound]
Ntcip.C81_zero_width	[propext, Classical.choice, Quot.sound]
Ntcip.C82_same_partial	[propext, Quot.sound]
Ntcip.C82_iff_partial	[propext, Quot.sound]
Ntcip.C82_no_panic_partial	[propext, Classical.choice, Quot.sound]
Ntcip.C82_panics	[propext, Quot.sound]
Ntcip.C82_widths_partial	[propext]
Ntcip.C82_text_rectangles	[propext, Classical.choice, Quot.sound]
Ntcip.C82_color_rectangles	[propext, Classical.choice, Quot.sound]
Ntcip.C82_false	[propext, Classical.choice, Quot.sound]
Ntcip.C83_error_partial	[propext, Classical.choice, Quot.sound]
Ntcip.C83_first_partial	[propext, Classical.choice, Quot.sound]
Ntcip.C83_tidy	[propext, Classical.choice, Quot.sound]
Ntcip.C83_kinds	[propext, Classical.choice, Quot.sound]
Ntcip.C83_false	[propext, Quot.sound]
Ntcip.C84_item	[propext, Classical.choice, Quot.sound]
Ntcip.C84_unique	[propext, Classical.choice, Quot.sound]
Ntcip.C84_message	[propext, Classical.choice, Quot.sound]
Ntcip.C84_meaning	[propext, Classical.choice, Quot.sound]
Ntcip.C85_cells	[propext, Classical.choice, Quot.sound]
Ntcip.C85_unchecked	[propext, Quot.sound]
Ntcip.C86_asked	[propext, Classical.choice, Quot.sound]
Ntcip.C86_plain	[propext, Classical.choice, Quot.sound]
Ntcip.C86_scheme	[propext, Classical.choice, Quot.sound]
Ntcip.C86_foreign	[propext, Quot.sound]
Ntcip.C87_error_iff	[propext, Classical.choice, Quot.sound]
Ntcip.C87_panics_iff	[propext, Classical.choice, Quot.sound]
Ntcip.C87_never	[propext, Classical.choice, Quot.sound]
Ntcip.C88_shown_iff_partial	[propext, Classical.choice, Quot.sound]
Ntcip.C89_ignored	[propext, Classical.choice, Quot.sound]
Ntcip.C89_false	[propext, Classical.choice, Quot.sound]
Ntcip.C89_single_partial	[propext, Classical.choice, Quot.sound]
Ntcip.C90_item	[propext, Classical.choice, Quot.sound]
Ntcip.C90_page	[propext, Classical.choice, Quot.sound]
Ntcip.C90_later	[propext, Classical.choice, Quot.sound]
Ntcip.C90_lines	[propext, Quot.sound]
Ntcip.C90_unique	[propext, Classical.choice, Quot.sound]
Ntcip.C91_page	[propext, Classical.choice, Quot.sound]
Ntcip.C91_same	[propext, Classical.choice, Quot.sound]
Ntcip.C91_result	[propext, Classical.choice, Quot.sound]
Ntcip.C91_place	[propext, Quot.sound]
Ntcip.C92_first_error	[propext, Classical.choice, Quot.sound]
Ntcip.C92_pictures	[propext, Classical.choice, Quot.sound]
Ntcip.C92_unique	[propext, Classical.choice, Quot.sound]
Ntcip.C92_message	[propext, Classical.choice, Quot.sound]
Ntcip.C92_no_panic	[propext, Classical.choice, Quot.sound]
Ntcip.C92_built	[propext, Classical.choice, Quot.sound]
Ntcip.C93_page	[propext, Classical.choice, Quot.sound]
Ntcip.C93_never	[propext, Classical.choice, Quot.sound]
Ntcip.C93_ends	[propext, Classical.choice, Quot.sound]
Ntcip.C93_message	[propext, Classical.choice, Quot.sound]
Ntcip.C93_unique	[propext, Classical.choice, Quot.sound]
Ntcip.C93_built	[propext, Classical.choice, Quot.sound]
Ntcip.C94_given	[propext, Classical.choice, Quot.sound]
Ntcip.C94_built	[propext, Classical.choice, Quot.sound]
Ntcip.C95_pages_partial	[propext, Classical.choice, Quot.sound]
Ntcip.C95_later_page_lost	[propext, Quot.sound]
Ntcip.C95_contained_partial	[propext, Classical.choice, Quot.sound]
Ntcip.C96_narrower	[propext, Classical.choice, Quot.sound]
Ntcip.C96_shortened	[propext, Classical.choice, Quot.sound]
Ntcip.C97_rows	[propext, Classical.choice, Quot.sound]
Ntcip.C97_rectangles	[propext, Classical.choice, Quot.sound]
Ntcip.C98_visible	[propext, Classical.choice, Quot.sound]
Ntcip.C98_room	[propext, Quot.sound]
Ntcip.C99_alone	[propext, Classical.choice, Quot.sound]
Ntcip.C99_page	[propext, Classical.choice, Quot.sound]
Ntcip.C100_sequence	[propext, Classical.choice, Quot.sound]
Ntcip.C100_reset	[propext, Classical.choice, Quot.sound]
Ntcip.C101_inset	[propext, Classical.choice, Quot.sound]
Ntcip.C102_defaults	[propext, Classical.choice, Quot.sound]
Ntcip.C102_own	[propext, Classical.choice, Quot.sound]
Ntcip.C103_style	[propext, Classical.choice, Quot.sound]
Ntcip.C103_built	[propext, Classical.choice, Quot.sound]
Ntcip.C104_files	[propext, Classical.choice, Quot.sound]
Ntcip.C104_names	[propext, Classical.choice, Quot.sound]
Ntcip.C104_ending	[propext, Classical.choice, Quot.sound]
Ntcip.C104_false	[propext, Quot.sound]
Ntcip.C105_lookup	[propext, Classical.choice, Quot.sound]
Ntcip.C105_missing	[propext, Classical.choice, Quot.sound]
Ntcip.C105_insertions	[propext, Classical.choice, Quot.sound]
Ntcip.C105_file	[propext, Classical.choice, Quot.sound]
Ntcip.C106_order	[propext, Classical.choice, Quot.sound]
Ntcip.C106_built	[propext, Classical.choice, Quot.sound]
Ntcip.C107_image	[propext, Classical.choice, Quot.sound]
Ntcip.C107_program	[propext, Classical.choice, Quot.sound]
Ntcip.C108_synonyms	[propext, Classical.choice, Quot.sound]
Ntcip.C108_shown	[propext, Classical.choice, Quot.sound]
Ntcip.C108_graphics	[propext, Quot.sound]
Ntcip.C109_off_sign	[propext, Classical.choice, Quot.sound]
Ntcip.C109_checked	[propext, Classical.choice, Quot.sound]
Ntcip.C109_no_panic	[propext, Classical.choice, Quot.sound]
Ntcip.C109_built	[propext, Classical.choice, Quot.sound]
Ntcip.C110_hidden	[propext, Classical.choice, Quot.sound]
Ntcip.C110_built	[propext, Classical.choice, Quot.sound]
Ntcip.C110_rectangle	[propext, Quot.sound]
Ntcip.C110_whole	[propext, Quot.sound]
Ntcip.C111_legible	[propext, Classical.choice, Quot.sound]
Ntcip.C111_built	[propext, Classical.choice, Quot.sound]
Ntcip.C111_fixed	[propext, Quot.sound]
Ntcip.C112_results	[propext, Quot.sound]
Ntcip.C112_shown	[propext, Quot.sound]
Ntcip.C112_values	[propext, Quot.sound]
Ntcip.C112_built	[propext, Classical.choice, Quot.sound]
Ntcip.C112_lines	[propext, Quot.sound]
Ntcip.C113_added	[propext, Classical.choice, Quot.sound]
Ntcip.C114_pictures	[propext, Classical.choice, Quot.sound]
Ntcip.C114_times	[propext, Classical.choice, Quot.sound]
Ntcip.C114_built	[propext, Classical.choice, Quot.sound]
Ntcip.C115_exchange	[propext, Classical.choice, Quot.sound]
Ntcip.C115_built	[propext, Classical.choice, Quot.sound]
Ntcip.C116_again	[propext, Classical.choice, Quot.sound]
Ntcip.C116_built	[propext, Classical.choice, Quot.sound]
Ntcip.C117_cover	[propext, Classical.choice, Quot.sound]
Ntcip.C117_cut	[propext, Classical.choice, Quot.sound]
Ntcip.C117_built	[propext, Classical.choice, Quot.sound]
Ntcip.C118_onward	[propext, Classical.choice, Quot.sound]
Ntcip.C118_typed	[propext, Classical.choice, Quot.sound]
Ntcip.C118_moved	[propext, Quot.sound]
Ntcip.C119_graphic_odd	[propext, Classical.choice, Quot.sound]
Ntcip.C119_graphic_few	[propext, Classical.choice, Quot.sound]
Ntcip.C119_graphic_two_iff	[propext, Classical.choice, Quot.sound]
Ntcip.C119_graphic_burst	[propext, Classical.choice, Quot.sound]
Ntcip.C119_font_odd	[propext, Classical.choice, Quot.sound]
Ntcip.C119_font_few	[propext, Classical.choice, Quot.sound]
Ntcip.C119_font_burst	[propext, Classical.choice, Quot.sound]
Ntcip.C119_unseen	[propext, Classical.choice, Quot.sound]
Ntcip.C120_vertical	[propext, Classical.choice, Quot.sound]
Ntcip.C120_horizontal	[propext, Classical.choice, Quot.sound]
Ntcip.C121_values	[propext, Classical.choice, Quot.sound]
Ntcip.C121_rows	[propext, Classical.choice, Quot.sound]
Ntcip.C121_rectangles	[propext, Classical.choice, Quot.sound]
Ntcip.C122_repaint	[propext, Classical.choice, Quot.sound]
Ntcip.C122_tiles	[propext, Classical.choice, Quot.sound]
Ntcip.C122_graphic	[propext, Classical.choice, Quot.sound]
Ntcip.C122_pixels	[propext, Classical.choice, Quot.sound]
Ntcip.C123_glyphs	[propext, Classical.choice, Quot.sound]
Ntcip.C123_cut	[propext, Classical.choice, Quot.sound]
Ntcip.C123_pattern	[propext, Classical.choice, Quot.sound]
Ntcip.C124_places	[propext, Classical.choice, Quot.sound]
Ntcip.C124_beside	[propext, Classical.choice, Quot.sound]
Ntcip.C125_last	[propext, Classical.choice, Quot.sound]
Ntcip.C125_order	[propext, Quot.sound]
Ntcip.C125_without	[propext, Classical.choice, Quot.sound]
Ntcip.C125_default	[propext, Classical.choice, Quot.sound]
Ntcip.C125_schemes	[propext]
Ntcip.C126_line	[propext, Classical.choice, Quot.sound]
Ntcip.C127_above	[propext, Classical.choice, Quot.sound]
Ntcip.C127_left	[propext, Classical.choice, Quot.sound]
Ntcip.C127_moved	[propext, Quot.sound]
Ntcip.C128_resized	[propext, Classical.choice, Quot.sound]
Ntcip.C128_moved	[propext, Quot.sound]
Ntcip.C129_larger	[propext, Classical.choice, Quot.sound]
Ntcip.C129_same	[propext, Classical.choice, Quot.sound]
Ntcip.C129_smaller	[propext, Quot.sound]
Ntcip.C130_prefix	[propext, Classical.choice, Quot.sound]
Ntcip.C130_onward	[propext, Classical.choice, Quot.sound]
Ntcip.C130_parts	[propext]
Ntcip.C131_tighter	[propext, Classical.choice, Quot.sound]
Ntcip.C131_left_out	[propext, Quot.sound]
Ntcip.C132_drawings	[propext, Classical.choice, Quot.sound]
Ntcip.C132_left_out	[propext, Classical.choice, Quot.sound]
Ntcip.C133_left_out	[propext, Classical.choice, Quot.sound]
Ntcip.C133_built	[propext, Classical.choice, Quot.sound]
Ntcip.C134_smaller	[propext, Classical.choice, Quot.sound]
Ntcip.C134_spacings	[propext, Classical.choice, Quot.sound]
Ntcip.C134_cells	[propext, Quot.sound]
Ntcip.C135_retinted	[propext, Classical.choice, Quot.sound]
Ntcip.C135_accepted	[propext, Classical.choice, Quot.sound]
Ntcip.C135_graphics	[propext, Quot.sound]
Ntcip.C136_dyed	[propext, Classical.choice, Quot.sound]
Ntcip.C136_accepted	[propext, Classical.choice, Quot.sound]
Ntcip.C136_replace	[propext, Classical.choice, Quot.sound]
Ntcip.C136_bits	[propext, Quot.sound]
Ntcip.C137_seen	[propext, Classical.choice, Quot.sound]
Ntcip.C137_lines	[propext, Classical.choice, Quot.sound]
Ntcip.C137_trimmed	[propext, Classical.choice, Quot.sound]
Ntcip.C137_right	[propext, Classical.choice, Quot.sound]
Ntcip.C138_parts	[propext, Classical.choice, Quot.sound]
Ntcip.C138_left	[propext, Classical.choice, Quot.sound]
Ntcip.C138_right	[propext, Classical.choice, Quot.sound]
Ntcip.C139_blocks	[propext, Classical.choice, Quot.sound]
Ntcip.C139_top	[propext, Classical.choice, Quot.sound]
Ntcip.C139_bottom	[propext, Classical.choice, Quot.sound]
Ntcip.C139_gap	[propext, Classical.choice, Quot.sound]
Ntcip.C140_same	[propext, Classical.choice, Quot.sound]
Ntcip.C140_panics	[propext, Classical.choice, Quot.sound]
Ntcip.C140_shown	[propext, Classical.choice, Quot.sound]
Ntcip.C140_bitmaps	[propext, Classical.choice, Quot.sound]
Ntcip.C140_all	[propext, Classical.choice, Quot.sound]
Ntcip.C140_graphics	[propext, Quot.sound]
Ntcip.C140_colors	[propext, Quot.sound]
Ntcip.C141_alike	[propext, Classical.choice, Quot.sound]
Ntcip.C141_colors	[propext, Classical.choice, Quot.sound]
Ntcip.C141_graphics	[propext, Classical.choice, Quot.sound]
Ntcip.C141_shown	[propext, Classical.choice, Quot.sound]
Ntcip.C141_order	[propext, Quot.sound]
Ntcip.C141_upgrade	[propext, Classical.choice, Quot.sound]
Ntcip.C141_strict	[propext, Classical.choice, Quot.sound]
