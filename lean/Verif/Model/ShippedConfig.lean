import Verif.Model.Base

/-!
# The config file shipped with detox — `/repo/etc/detoxrc`

Generated, byte for byte, from the file (the text of each line is repeated in a comment).
-/

set_option autoImplicit false

namespace Detox

/-- The lines of etc/detoxrc, lines 1-133. -/
def shippedConfigLines : List Bytes := [
  -- #
  [35, 10],
  -- # config file for detox(1)
  [35, 32, 99, 111, 110, 102, 105, 103, 32, 102, 105, 108, 101, 32, 102, 111, 114, 32, 100, 101, 116, 111, 120, 40, 49, 41, 10],
  -- #
  [35, 10],
  -- # Remove problematic characters.
  [35, 32, 82, 101, 109, 111, 118, 101, 32, 112, 114, 111, 98, 108, 101, 109, 97, 116, 105, 99, 32, 99, 104, 97, 114, 97, 99, 116, 101, 114, 115, 46, 10],
  -- #
  [35, 10],
  -- 
  [10],
  -- #
  [35, 10],
  -- # Default sequence.
  [35, 32, 68, 101, 102, 97, 117, 108, 116, 32, 115, 101, 113, 117, 101, 110, 99, 101, 46, 10],
  -- #
  [35, 10],
  -- 
  [10],
  -- sequence default {
  [115, 101, 113, 117, 101, 110, 99, 101, 32, 100, 101, 102, 97, 117, 108, 116, 32, 123, 10],
  --     safe {
  [9, 115, 97, 102, 101, 32, 123, 10],
  --         builtin "safe";
  [9, 9, 98, 117, 105, 108, 116, 105, 110, 32, 34, 115, 97, 102, 101, 34, 59, 10],
  --     };
  [9, 125, 59, 10],
  --     wipeup {
  [9, 119, 105, 112, 101, 117, 112, 32, 123, 10],
  --         remove_trailing;
  [9, 9, 114, 101, 109, 111, 118, 101, 95, 116, 114, 97, 105, 108, 105, 110, 103, 59, 10],
  --     };
  [9, 125, 59, 10],
  -- };
  [125, 59, 10],
  -- 
  [10],
  -- #
  [35, 10],
  -- # Sequences meant primarily for detox
  [35, 32, 83, 101, 113, 117, 101, 110, 99, 101, 115, 32, 109, 101, 97, 110, 116, 32, 112, 114, 105, 109, 97, 114, 105, 108, 121, 32, 102, 111, 114, 32, 100, 101, 116, 111, 120, 10],
  -- #
  [35, 10],
  -- 
  [10],
  -- # transcodes ISO-8859-1 into UTF-8
  [35, 32, 116, 114, 97, 110, 115, 99, 111, 100, 101, 115, 32, 73, 83, 79, 45, 56, 56, 53, 57, 45, 49, 32, 105, 110, 116, 111, 32, 85, 84, 70, 45, 56, 10],
  -- sequence "iso8859_1" {
  [115, 101, 113, 117, 101, 110, 99, 101, 32, 34, 105, 115, 111, 56, 56, 53, 57, 95, 49, 34, 32, 123, 10],
  --     iso8859_1 {
  [9, 105, 115, 111, 56, 56, 53, 57, 95, 49, 32, 123, 10],
  --         builtin "iso8859_1";
  [9, 9, 98, 117, 105, 108, 116, 105, 110, 32, 34, 105, 115, 111, 56, 56, 53, 57, 95, 49, 34, 59, 10],
  --     };
  [9, 125, 59, 10],
  --     safe {
  [9, 115, 97, 102, 101, 32, 123, 10],
  --         builtin "safe";
  [9, 9, 98, 117, 105, 108, 116, 105, 110, 32, 34, 115, 97, 102, 101, 34, 59, 10],
  --     };
  [9, 125, 59, 10],
  --     wipeup {
  [9, 119, 105, 112, 101, 117, 112, 32, 123, 10],
  --         remove_trailing;
  [9, 9, 114, 101, 109, 111, 118, 101, 95, 116, 114, 97, 105, 108, 105, 110, 103, 59, 10],
  --     };
  [9, 125, 59, 10],
  -- };
  [125, 59, 10],
  -- 
  [10],
  -- # transcodes CP-1252 and ISO-8859-1 into UTF-8
  [35, 32, 116, 114, 97, 110, 115, 99, 111, 100, 101, 115, 32, 67, 80, 45, 49, 50, 53, 50, 32, 97, 110, 100, 32, 73, 83, 79, 45, 56, 56, 53, 57, 45, 49, 32, 105, 110, 116, 111, 32, 85, 84, 70, 45, 56, 10],
  -- sequence "iso8859_1-legacy" {
  [115, 101, 113, 117, 101, 110, 99, 101, 32, 34, 105, 115, 111, 56, 56, 53, 57, 95, 49, 45, 108, 101, 103, 97, 99, 121, 34, 32, 123, 10],
  --     iso8859_1 {
  [9, 105, 115, 111, 56, 56, 53, 57, 95, 49, 32, 123, 10],
  --         builtin "cp1252";
  [9, 9, 98, 117, 105, 108, 116, 105, 110, 32, 34, 99, 112, 49, 50, 53, 50, 34, 59, 10],
  --     };
  [9, 125, 59, 10],
  --     iso8859_1 {
  [9, 105, 115, 111, 56, 56, 53, 57, 95, 49, 32, 123, 10],
  --         builtin "iso8859_1";
  [9, 9, 98, 117, 105, 108, 116, 105, 110, 32, 34, 105, 115, 111, 56, 56, 53, 57, 95, 49, 34, 59, 10],
  --     };
  [9, 125, 59, 10],
  --     safe {
  [9, 115, 97, 102, 101, 32, 123, 10],
  --         builtin "safe";
  [9, 9, 98, 117, 105, 108, 116, 105, 110, 32, 34, 115, 97, 102, 101, 34, 59, 10],
  --     };
  [9, 125, 59, 10],
  --     wipeup {
  [9, 119, 105, 112, 101, 117, 112, 32, 123, 10],
  --         remove_trailing;
  [9, 9, 114, 101, 109, 111, 118, 101, 95, 116, 114, 97, 105, 108, 105, 110, 103, 59, 10],
  --     };
  [9, 125, 59, 10],
  -- };
  [125, 59, 10],
  -- 
  [10],
  -- # handles UTF-8 control codes
  [35, 32, 104, 97, 110, 100, 108, 101, 115, 32, 85, 84, 70, 45, 56, 32, 99, 111, 110, 116, 114, 111, 108, 32, 99, 111, 100, 101, 115, 10],
  -- sequence "utf_8" {
  [115, 101, 113, 117, 101, 110, 99, 101, 32, 34, 117, 116, 102, 95, 56, 34, 32, 123, 10],
  --     utf_8 {
  [9, 117, 116, 102, 95, 56, 32, 123, 10],
  --         builtin "unicode";
  [9, 9, 98, 117, 105, 108, 116, 105, 110, 32, 34, 117, 110, 105, 99, 111, 100, 101, 34, 59, 10],
  --     };
  [9, 125, 59, 10],
  --     safe {
  [9, 115, 97, 102, 101, 32, 123, 10],
  --         builtin "safe";
  [9, 9, 98, 117, 105, 108, 116, 105, 110, 32, 34, 115, 97, 102, 101, 34, 59, 10],
  --     };
  [9, 125, 59, 10],
  --     wipeup {
  [9, 119, 105, 112, 101, 117, 112, 32, 123, 10],
  --         remove_trailing;
  [9, 9, 114, 101, 109, 111, 118, 101, 95, 116, 114, 97, 105, 108, 105, 110, 103, 59, 10],
  --     };
  [9, 125, 59, 10],
  -- };
  [125, 59, 10],
  -- 
  [10],
  -- # decodes CGI-escaped characters
  [35, 32, 100, 101, 99, 111, 100, 101, 115, 32, 67, 71, 73, 45, 101, 115, 99, 97, 112, 101, 100, 32, 99, 104, 97, 114, 97, 99, 116, 101, 114, 115, 10],
  -- sequence "uncgi" {
  [115, 101, 113, 117, 101, 110, 99, 101, 32, 34, 117, 110, 99, 103, 105, 34, 32, 123, 10],
  --     uncgi;
  [9, 117, 110, 99, 103, 105, 59, 10],
  --     safe {
  [9, 115, 97, 102, 101, 32, 123, 10],
  --         builtin "safe";
  [9, 9, 98, 117, 105, 108, 116, 105, 110, 32, 34, 115, 97, 102, 101, 34, 59, 10],
  --     };
  [9, 125, 59, 10],
  --     wipeup {
  [9, 119, 105, 112, 101, 117, 112, 32, 123, 10],
  --         remove_trailing;
  [9, 9, 114, 101, 109, 111, 118, 101, 95, 116, 114, 97, 105, 108, 105, 110, 103, 59, 10],
  --     };
  [9, 125, 59, 10],
  -- };
  [125, 59, 10],
  -- 
  [10],
  -- # converts files to lower case
  [35, 32, 99, 111, 110, 118, 101, 114, 116, 115, 32, 102, 105, 108, 101, 115, 32, 116, 111, 32, 108, 111, 119, 101, 114, 32, 99, 97, 115, 101, 10],
  -- sequence "lower" {
  [115, 101, 113, 117, 101, 110, 99, 101, 32, 34, 108, 111, 119, 101, 114, 34, 32, 123, 10],
  --     safe {
  [9, 115, 97, 102, 101, 32, 123, 10],
  --         builtin "safe";
  [9, 9, 98, 117, 105, 108, 116, 105, 110, 32, 34, 115, 97, 102, 101, 34, 59, 10],
  --     };
  [9, 125, 59, 10],
  --     lower;
  [9, 108, 111, 119, 101, 114, 59, 10],
  --     wipeup {
  [9, 119, 105, 112, 101, 117, 112, 32, 123, 10],
  --         remove_trailing;
  [9, 9, 114, 101, 109, 111, 118, 101, 95, 116, 114, 97, 105, 108, 105, 110, 103, 59, 10],
  --     };
  [9, 125, 59, 10],
  -- };
  [125, 59, 10],
  -- 
  [10],
  -- #
  [35, 10],
  -- # Sequences meant primarily for inline-detox
  [35, 32, 83, 101, 113, 117, 101, 110, 99, 101, 115, 32, 109, 101, 97, 110, 116, 32, 112, 114, 105, 109, 97, 114, 105, 108, 121, 32, 102, 111, 114, 32, 105, 110, 108, 105, 110, 101, 45, 100, 101, 116, 111, 120, 10],
  -- #
  [35, 10],
  -- 
  [10],
  -- # transcodes ISO-8859-1 to ASCII
  [35, 32, 116, 114, 97, 110, 115, 99, 111, 100, 101, 115, 32, 73, 83, 79, 45, 56, 56, 53, 57, 45, 49, 32, 116, 111, 32, 65, 83, 67, 73, 73, 10],
  -- sequence "iso8859_1-only" {
  [115, 101, 113, 117, 101, 110, 99, 101, 32, 34, 105, 115, 111, 56, 56, 53, 57, 95, 49, 45, 111, 110, 108, 121, 34, 32, 123, 10],
  --     iso8859_1 {
  [9, 105, 115, 111, 56, 56, 53, 57, 95, 49, 32, 123, 10],
  --         builtin "iso8859_1";
  [9, 9, 98, 117, 105, 108, 116, 105, 110, 32, 34, 105, 115, 111, 56, 56, 53, 57, 95, 49, 34, 59, 10],
  --     };
  [9, 125, 59, 10],
  -- };
  [125, 59, 10],
  -- 
  [10],
  -- # transcodes CP-1252 to ASCII
  [35, 32, 116, 114, 97, 110, 115, 99, 111, 100, 101, 115, 32, 67, 80, 45, 49, 50, 53, 50, 32, 116, 111, 32, 65, 83, 67, 73, 73, 10],
  -- sequence "cp1252-only" {
  [115, 101, 113, 117, 101, 110, 99, 101, 32, 34, 99, 112, 49, 50, 53, 50, 45, 111, 110, 108, 121, 34, 32, 123, 10],
  --     iso8859_1 {
  [9, 105, 115, 111, 56, 56, 53, 57, 95, 49, 32, 123, 10],
  --         builtin "cp1252";
  [9, 9, 98, 117, 105, 108, 116, 105, 110, 32, 34, 99, 112, 49, 50, 53, 50, 34, 59, 10],
  --     };
  [9, 125, 59, 10],
  -- };
  [125, 59, 10],
  -- 
  [10],
  -- # handles UTF-8 control codes
  [35, 32, 104, 97, 110, 100, 108, 101, 115, 32, 85, 84, 70, 45, 56, 32, 99, 111, 110, 116, 114, 111, 108, 32, 99, 111, 100, 101, 115, 10],
  -- sequence "utf_8-only" {
  [115, 101, 113, 117, 101, 110, 99, 101, 32, 34, 117, 116, 102, 95, 56, 45, 111, 110, 108, 121, 34, 32, 123, 10],
  --     utf_8 {
  [9, 117, 116, 102, 95, 56, 32, 123, 10],
  --         builtin "unicode";
  [9, 9, 98, 117, 105, 108, 116, 105, 110, 32, 34, 117, 110, 105, 99, 111, 100, 101, 34, 59, 10],
  --     };
  [9, 125, 59, 10],
  -- };
  [125, 59, 10],
  -- 
  [10],
  -- # decodes CGI-escaped characters
  [35, 32, 100, 101, 99, 111, 100, 101, 115, 32, 67, 71, 73, 45, 101, 115, 99, 97, 112, 101, 100, 32, 99, 104, 97, 114, 97, 99, 116, 101, 114, 115, 10],
  -- sequence "uncgi-only" {
  [115, 101, 113, 117, 101, 110, 99, 101, 32, 34, 117, 110, 99, 103, 105, 45, 111, 110, 108, 121, 34, 32, 123, 10],
  --     uncgi;
  [9, 117, 110, 99, 103, 105, 59, 10],
  -- };
  [125, 59, 10],
  -- 
  [10],
  -- # converts files to lower case
  [35, 32, 99, 111, 110, 118, 101, 114, 116, 115, 32, 102, 105, 108, 101, 115, 32, 116, 111, 32, 108, 111, 119, 101, 114, 32, 99, 97, 115, 101, 10],
  -- sequence "lower-only" {
  [115, 101, 113, 117, 101, 110, 99, 101, 32, 34, 108, 111, 119, 101, 114, 45, 111, 110, 108, 121, 34, 32, 123, 10],
  --     lower;
  [9, 108, 111, 119, 101, 114, 59, 10],
  -- };
  [125, 59, 10],
  -- 
  [10],
  -- 
  [10],
  -- #
  [35, 10],
  -- # Files to ignore during recursion (detox only)
  [35, 32, 70, 105, 108, 101, 115, 32, 116, 111, 32, 105, 103, 110, 111, 114, 101, 32, 100, 117, 114, 105, 110, 103, 32, 114, 101, 99, 117, 114, 115, 105, 111, 110, 32, 40, 100, 101, 116, 111, 120, 32, 111, 110, 108, 121, 41, 10],
  -- #
  [35, 10],
  -- # Any file or directory starting with '.' is automatically ignored except when
  [35, 32, 65, 110, 121, 32, 102, 105, 108, 101, 32, 111, 114, 32, 100, 105, 114, 101, 99, 116, 111, 114, 121, 32, 115, 116, 97, 114, 116, 105, 110, 103, 32, 119, 105, 116, 104, 32, 39, 46, 39, 32, 105, 115, 32, 97, 117, 116, 111, 109, 97, 116, 105, 99, 97, 108, 108, 121, 32, 105, 103, 110, 111, 114, 101, 100, 32, 101, 120, 99, 101, 112, 116, 32, 119, 104, 101, 110, 10],
  -- # it is passed on the command-line.
  [35, 32, 105, 116, 32, 105, 115, 32, 112, 97, 115, 115, 101, 100, 32, 111, 110, 32, 116, 104, 101, 32, 99, 111, 109, 109, 97, 110, 100, 45, 108, 105, 110, 101, 46, 10],
  -- #
  [35, 10],
  -- 
  [10],
  -- ignore {
  [105, 103, 110, 111, 114, 101, 32, 123, 10],
  --     filename "{arch}";
  [9, 102, 105, 108, 101, 110, 97, 109, 101, 32, 34, 123, 97, 114, 99, 104, 125, 34, 59, 10],
  -- };
  [125, 59, 10]]

/-- The file etc/detoxrc, lines 1-133. -/
def shippedConfig : Bytes := shippedConfigLines.flatten

end Detox
